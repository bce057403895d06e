/-
  Property theorems C41: the blanks that `NO_MS_KEYWORDS` leaves.
-/
import Verif.Proof.DeclFn

namespace Undname
namespace Props
open Spec

variable {E : Env}

/-- The qualifiers of a pointer as they are printed with `NO_MS_KEYWORDS`: `const` and `volatile`; a `__restrict` is not
printed, but the blank before it is. -/
theorem ms_sep (hE : E.flags.no_ms_keywords = true) (q : CV) :
    q.sep E = Ty.cvWords q.c q.v ++ (if q.r && (q.c || q.v) then c!" " else []) := by
  obtain ⟨c, v, r, u⟩ := q
  cases c <;> cases v <;> cases r <;> simp [CV.sep, CV.after, CV.words, Ty.cvWords, hE]

theorem ms_after (q : CV) (h : q.r = false) : q.after E = Ty.cvAfter q.c q.v := by
  obtain ⟨c, v, r, u⟩ := q
  cases h
  cases c <;> cases v <;> rfl

/-- The tree of the pointers below. -/
theorem ms_ptr_pre (hE : E.flags.no_ms_keywords = true) (cv : CV) (q : CV) (hq : q.r = false) (k : PrimitiveKind) (w : Text) (b : Bool) :
    ((T.ptr cv .Pointer .nil (.prim q k)).pr E).pre b w =
      sp E (w ++ primName k ++ Ty.cvAfter q.c q.v) ++ c!"*" ++ Ty.cvWords cv.c cv.v ++
        (if cv.r && (cv.c || cv.v) then c!" " else []) := by
  have h1 : ((T.prim q k).pr E).pre true w = w ++ primName k ++ Ty.cvAfter q.c q.v := by
    show w ++ primName k ++ q.after E = _
    rw [ms_after q hq]
  show ((if _ then _ else openParen E (.prim q k) (sp E (((T.prim q k).pr E).pre true w) ++ _)) ++ affName .Pointer) ++ cv.sep E = _
  rw [h1, ms_sep hE]
  simp [openParen, hE, affName, T.pr, Pr.nil]

theorem var_text_eq (h1 : E.flags.name_only = false) (h2 : E.flags.no_variable_type = false) (sc : Option StorageClass) (n t : T) :
    (T.var sc n t.one).text E = (t.pr E).post false ((n.pr E).out (sp E ((t.pr E).pre false (storageText E sc)))) := by
  simp [T.text, T.pr, Pr.ofText, T.one, Pr.cons, h1, h2]

theorem fn_text_eq (n : T) (f : Sig) (r p : T) :
    (T.fn n (.sig f r p)).text E = sigPost E f (r.pr E) (p.pr E) false ((n.pr E).out (sp E (sigPre E f (r.pr E) false []))) := rfl

/-- **C41**: with `NO_MS_KEYWORDS`, a function with a parameter that is a pointer, possibly `__restrict` (`I`) or `__unaligned`
(`F`): neither keyword is printed. Where `__restrict` follows `const` or `volatile`, the blank between them stays, before the closing
parenthesis; otherwise there is no blank. -/
theorem C41_parameters (hE : E.flags = Flags.NO_MS_KEYWORDS) {name : List Text} (hn : IsPath name) {code : Text} {cv : CV}
    (hc : (code, cv) ∈ ptrCodes) (e : Ext) {ch : Char} {q : CV} (hq : (ch, q) ∈ cvCodes) (k : PrimitiveKind) (rest : Text) :
    Shows E (c!"?" ++ manglePath name ++ c!"YAX" ++ code ++ e.code ++ ch :: primCode k ++ c!"@Z" ++ rest)
      (c!"void " ++ showPath name ++ c!"(" ++ sp E (primName k ++ Ty.cvAfter q.c q.v) ++ c!"*" ++ Ty.cvWords cv.c cv.v ++
        (if e.i && (cv.c || cv.v) then c!" " else []) ++ c!")") := by
  have hp : (code, cv, PointerAffinity.Pointer) ∈ refCodes := by
    have : ∀ p ∈ ptrCodes, (p.1, p.2, PointerAffinity.Pointer) ∈ refCodes := by decide
    exact this _ hc
  have hr : cv.r = false ∧ q.r = false := by
    have h1 : ∀ p ∈ ptrCodes, p.2.r = false := by decide
    have h2 : ∀ p ∈ cvCodes, p.2.r = false := by decide
    exact ⟨h1 _ hc, h2 _ hq⟩
  have hcode : code ≠ [] ∧ code.head? ≠ some 'X' := by
    have : ∀ p ∈ ptrCodes, p.1 ≠ [] ∧ p.1.head? ≠ some 'X' := by decide
    exact this _ hc
  have hz : ∀ tb, ∃ tb', Gram E .fenc tb (.sig { conv := some .Cdecl } (T.one (.prim {} .Void))
      (T.one (.arr (T.one (.ptr (cv.or e.cv) .Pointer .nil (.prim q k)))))) (c!"YAX" ++ code ++ e.code ++ ch :: primCode k ++ c!"@Z") tb' := by
    intro tb
    have hm : (c!"Y", ({} : FnKind), AdjKind.none) ∈ classCodes := by decide
    have g1 : Gram E .ty tb (.ptr (cv.or e.cv) .Pointer .nil ((T.prim {} k).addQ q)) (code ++ e.code ++ ch :: primCode k) tb :=
      .ptr e hp hq (.prim k)
    have e1 : (T.prim {} k).addQ q = .prim q k := by
      obtain ⟨c, v, r, u⟩ := q
      simp [T.addQ, CV.or]
    rw [e1] at g1
    have g2 := Gram.pFixed (Gram.pType g1 (by
      cases code with
      | nil => exact absurd rfl hcode.1
      | cons c cs =>
        have : 0 < (primCode k).length := by cases k <;> decide
        simp only [List.length_append, List.length_cons]; omega) .pNil) (by
      cases code with
      | nil => exact absurd rfl hcode.1
      | cons c cs => simpa using hcode.2)
    have g3 := Gram.fn 'A' false (.retSome (.resPlain (.prim (E := E) (tb := tb) .Void) (by decide))) g2
    refine ⟨tb.noteParam (.ptr (cv.or e.cv) .Pointer .nil (.prim q k)), cast ?_ (Gram.fenc false hm .none g3)⟩
    simp [primCode, throwCode, convOf, convCodes, T.one]
  obtain ⟨tb', g⟩ := fn_gram (E := E) hn hz {}
  have := shows_sym g rest
  refine cast (congr (congrArg _ ?_) ?_) this
  · simp
  · have f1 : E.flags.no_ms_keywords = true ∧ E.flags.name_only = false ∧ E.flags.no_return_type = false := by rw [hE]; decide
    have hpre : ∀ w, (sigPre E { conv := some .Cdecl } ((T.one (.prim {} .Void)).pr E) false w) = w ++ c!"void " := by
      intro w
      simp [sigPre, T.one, T.pr, Pr.cons, Pr.ofType, f1, CV.after, CV.words, primName]
    have hsp : sp E ([] ++ c!"void ") = c!"void " := rfl
    have hpo : ∀ w, ((T.ptr (cv.or e.cv) .Pointer .nil (.prim q k)).pr E).post false w = w := by
      intro w
      simp [T.pr, Pr.ofType, needsParens]
    have hout : ∀ w, ((T.ptr (cv.or e.cv) .Pointer .nil (.prim q k)).pr E).out (w ++ c!"(") =
        w ++ c!"(" ++ sp E (primName k ++ Ty.cvAfter q.c q.v) ++ c!"*" ++ Ty.cvWords cv.c cv.v ++
        (if e.i && (cv.c || cv.v) then c!" " else []) := by
      intro w
      show ((T.ptr (cv.or e.cv) .Pointer .nil (.prim q k)).pr E).post false (((T.ptr (cv.or e.cv) .Pointer .nil (.prim q k)).pr E).pre false _) = _
      rw [hpo, ms_ptr_pre f1.1 _ _ hr.2, List.append_assoc (w ++ c!"("), sp_append E _ _ (by
        cases k <;> simp [primName])]
      simp [CV.or, Ext.cv, hr.1]
    rw [fn_text_eq, hpre, hsp, path_out]
    have hps : ∀ w, ((T.one (.arr (T.one (.ptr (cv.or e.cv) .Pointer .nil (.prim q k))))).pr E).out w =
        ((T.ptr (cv.or e.cv) .Pointer .nil (.prim q k)).pr E).out w := fun w => rfl
    have hps' : ((T.one (.arr (T.one (.ptr (cv.or e.cv) .Pointer .nil (.prim q k))))).pr E).some = true := rfl
    have hret : ∀ w, ((T.one (.prim {} .Void)).pr E).post false w = w := fun _ => rfl
    simp only [sigPost, paramsOut, hps, hps', hout, hret, f1]
    simp [CV.this, refName]

/-- **C41**: the same pointer as a variable: the blank before the name is never doubled. -/
theorem C41_variables (hE : E.flags = Flags.NO_MS_KEYWORDS) {name : List Text} (hn : IsPath name) {code : Text} {cv : CV}
    (hc : (code, cv) ∈ ptrCodes) (e : Ext) {ch : Char} {q : CV} (hq : (ch, q) ∈ cvCodes) (k : PrimitiveKind) (rest : Text) :
    Shows E (c!"?" ++ manglePath name ++ c!"3" ++ code ++ e.code ++ ch :: primCode k ++ e.code ++ [ch] ++ rest)
      (sp E (primName k ++ Ty.cvAfter q.c q.v) ++ c!"*" ++ Ty.cvWords cv.c cv.v ++
        (if cv.c || cv.v then c!" " else []) ++ showPath name) := by
  have hp : (code, cv, PointerAffinity.Pointer) ∈ refCodes := by
    have : ∀ p ∈ ptrCodes, (p.1, p.2, PointerAffinity.Pointer) ∈ refCodes := by decide
    exact this _ hc
  have hr : cv.r = false ∧ q.r = false := by
    have h1 : ∀ p ∈ ptrCodes, p.2.r = false := by decide
    have h2 : ∀ p ∈ cvCodes, p.2.r = false := by decide
    exact ⟨h1 _ hc, h2 _ hq⟩
  have f1 : E.flags.no_ms_keywords = true ∧ E.flags.name_only = false ∧ E.flags.no_variable_type = false := by rw [hE]; decide
  obtain ⟨hne, hpth⟩ := hn
  cases name with
  | nil => exact absurd rfl hne
  | cons s p =>
    obtain ⟨tb1, h1⟩ := scopes_gram (E := E) (p := p) (fun s hs => hpth s (by simp [hs])) (({} : Tbl).note s)
    have hs := sname_gram (E := E) (hpth s (by simp)) {}
    have g1 : Gram E .ty tb1 (.ptr (cv.or e.cv) .Pointer .nil ((T.prim {} k).addQ q)) (code ++ e.code ++ ch :: primCode k) tb1 :=
      .ptr e hp hq (.prim k)
    have e1 : (T.prim {} k).addQ q = .prim q k := by
      obtain ⟨c, v, r, u⟩ := q
      simp [T.addQ, CV.or]
    have e2 : (T.prim q k).addQ q = .prim q k := by
      obtain ⟨c, v, r, u⟩ := q
      simp [T.addQ, CV.or]
    rw [e1] at g1
    have hst : ('3', StorageClass.Global) ∈ storageCodes := by decide
    have g := sym_of (.varPtr e hs rfl h1 hst g1 (List.mem_append_left _ hq)) hs rfl
    rw [e2, ← pathT_cons] at g
    have := shows_sym g rest
    refine cast (congr (congrArg _ ?_) ?_) this
    · rw [manglePath_cons]; simp
    · have e3 : ∀ cv : CV, cv.r = false → ((cv.or e.cv).or e.cv) = { c := cv.c, v := cv.v, r := e.i, u := cv.u || e.f } := by
        intro cv h
        simp [CV.or, Ext.cv, h]
      have hpo : ∀ cv w, ((T.ptr cv .Pointer .nil (.prim q k)).pr E).post false w = w := by
        intro cv w
        simp [T.pr, Pr.ofType, needsParens]
      have hsp : sp E (sp E (primName k ++ Ty.cvAfter q.c q.v) ++ c!"*" ++ Ty.cvWords cv.c cv.v ++
          (if e.i && (cv.c || cv.v) then c!" " else [])) = sp E (primName k ++ Ty.cvAfter q.c q.v) ++ c!"*" ++ Ty.cvWords cv.c cv.v ++
          (if cv.c || cv.v then c!" " else []) := by
        simp only [List.append_assoc]
        rw [sp_append E _ _ (by simp)]
        congr 1
        cases cv.c <;> cases cv.v <;> cases e.i <;> simp [Ty.cvWords, sp, isWordEnd]
      have hp1 := ms_ptr_pre f1.1 { c := cv.c, v := cv.v, r := e.i, u := cv.u || e.f } q hr.2 k [] false
      rw [e3 cv hr.1]
      rw [var_text_eq f1.2.1 f1.2.2, hpo, path_out]
      have e4 : storageText E (some .Global) = [] := rfl
      rw [e4, hp1]
      simp only [List.nil_append]
      rw [hsp]

/-- The stray blank. -/
example : demangle ⟨Flags.NO_MS_KEYWORDS, fun _ => false⟩ c!"?f@@YAXQIAD@Z" = .ok (.ok c!"void f(char *const )") := by
  have := C41_parameters (E := ⟨Flags.NO_MS_KEYWORDS, fun _ => false⟩) rfl (name := [c!"f"]) (by decide) (code := c!"Q") (cv := { c := true })
    (by decide) { i := true } (ch := 'A') (q := {}) (by decide) .Char []
  exact this.short (by decide) (by decide +kernel)

/-- No blank without `const` or `volatile`. -/
example : demangle ⟨Flags.NO_MS_KEYWORDS, fun _ => false⟩ c!"?f@@YAXPEIFBD@Z" = .ok (.ok c!"void f(char const *)") := by
  have := C41_parameters (E := ⟨Flags.NO_MS_KEYWORDS, fun _ => false⟩) rfl (name := [c!"f"]) (by decide) (code := c!"P") (cv := {})
    (by decide) ⟨true, true, true⟩ (ch := 'B') (q := { c := true }) (by decide) .Char []
  exact this.short (by decide) (by decide +kernel)

example : demangle ⟨Flags.NO_MS_KEYWORDS, fun _ => false⟩ c!"?x@@3QIADIA" = .ok (.ok c!"char *const x") := by
  have := C41_variables (E := ⟨Flags.NO_MS_KEYWORDS, fun _ => false⟩) rfl (name := [c!"x"]) (by decide) (code := c!"Q") (cv := { c := true })
    (by decide) { i := true } (ch := 'A') (q := {}) (by decide) .Char []
  exact this.short (by decide) (by decide +kernel)

end Props
end Undname

/-
  Property theorems C19-C21: back-references.
-/
import Verif.Proof.BackRefs

namespace Undname
namespace Props
open Spec

variable {E : Env} (hE : E.flags = Flags.default)
include hE

/-- **C19**: in the scopes of a variable, a digit stands for one of the first ten distinct names seen so far, and is
rejected if there is no such name. -/
theorem C19_name_references {s : Text} (hs : Name s) {up : Path} (hu : up.Ok) (rest : Text) :
    Gives E (mangleRefVar s up ++ rest) (readRefVar s up) := by
  have hP := plain_default hE
  have h := path_ok hP up hu [s] (({} : Tbl).note s) (note_kept (seen := []) rfl s)
  unfold PathOk at h
  unfold readRefVar mangleRefVar
  cases hr : up.read [s] with
  | error e =>
    rw [hr] at h
    have hM : MSname E {} _ _ _ := gram_reads (sname_gram (E := E) hs {})
    have hb := bad_decl_scopes hM (h (c!"3HA" ++ rest)).1
    have := bad_sym (head_name hs c!"@" _) hb
    show Rejects E _ e
    simpa using this
  | ok r =>
    obtain ⟨ss, seen⟩ := r
    rw [hr] at h
    obtain ⟨ts, tb', h1, h2, h3, h4, _⟩ := h
    have hst : ('3', StorageClass.Global) ∈ storageCodes := by decide
    have hA : ('A', ({} : CV)) ∈ cvCodes ++ memberCvCodes := by decide
    have g := sym_of (Gram.var (sname_gram (E := E) hs {}) rfl h4 hst (.prim .Int) rfl hA) (sname_gram (E := E) hs {}) rfl
    have := shows_sym g rest
    rw [rev_snoc] at this
    have hn : ∀ w, ((T.qname (tl (leaf s :: ts).reverse)).pr E).out w = w ++ showPath (s :: ss) :=
      Prints.path (.cons (leaf_out E s) h1)
    have e : CV.after E {} = [] := rfl
    have ht : (T.var (some .Global) (.qname (tl (leaf s :: ts).reverse)) ((T.prim {} .Int).setQ {}).one).text E =
        c!"int " ++ showPath (s :: ss) := by
      simp only [T.text, T.pr, Pr.ofText, T.one, Pr.cons, hP.n6, hP.n10, T.setQ, Pr.ofType, e] at *
      simp only [Bool.not_false, Bool.and_self, if_true, hn, storageText, storageAccess]
      simp
      rfl
    rw [ht] at this
    show Shows E _ _
    simpa [primCode] using this

/-- The same for the scopes of a function and the names of the classes in its parameters; **C20**: a digit in the place of a
parameter stands for one of the first ten earlier parameters that were written with more than one character. -/
theorem C20_parameter_references {s : Text} (hs : Name s) {up : Path} (hu : up.Ok) {ps : List Param} (hp : ∀ p ∈ ps, p.Ok)
    (rest : Text) : Gives E (mangleRefFn s up ps ++ rest) (readRefFn s up ps) := by
  have hP := plain_default hE
  have h := path_ok hP up hu [s] (({} : Tbl).note s) (note_kept (seen := []) rfl s)
  unfold PathOk at h
  unfold readRefFn mangleRefFn
  have hM : MSname E {} _ _ _ := gram_reads (sname_gram (E := E) hs {})
  have hx : (ps.flatMap Param.mangle).head? ≠ some 'X' ∧ ∀ rest, (ps.flatMap Param.mangle ++ '@' :: rest).head? ≠ some 'X' := by
    cases ps with
    | nil => simp
    | cons p ps =>
      have : ∃ c u, p.mangle = c :: u ∧ c ≠ 'X' := by
        have := hp p (by simp)
        cases p with
        | prim k => revert this; cases k <;> intro h <;> first | exact absurd rfl h | exact ⟨_, _, rfl, by decide⟩
        | cls p => exact ⟨_, _, rfl, by decide⟩
        | back d =>
          obtain ⟨c, hc, _, _, h3, _⟩ := digit_char (show d < 10 from this)
          refine ⟨c, [], hc, ?_⟩
          rintro rfl
          revert hc
          have hd : d < 10 := this
          have : ∀ d < 10, digit d ≠ ['X'] := by decide
          exact this d hd
      obtain ⟨c, u, e, hc⟩ := this
      simp [e, hc]
  cases hr : up.read [s] with
  | error e =>
    rw [hr] at h
    have hb := bad_decl_scopes hM (h (c!"YAX" ++ ps.flatMap Param.mangle ++ c!"@Z" ++ rest)).1
    have := bad_sym (head_name hs c!"@" _) hb
    show Rejects E _ e
    simpa using this
  | ok r =>
    obtain ⟨ss, seen⟩ := r
    rw [hr] at h
    obtain ⟨ts, tb', h1, h2, h3, h4, _⟩ := h
    have hq := params_ok hP ps hp seen [] tb' h2 (by rw [h3, note_params]; exact .nil)
    unfold ParamsOk at hq
    have gr : Gram E .ret tb' _ c!"X" tb' := .retSome (.resPlain (.prim .Void) (by decide))
    cases hr2 : readParams ps seen [] with
    | error e =>
      rw [hr2] at hq
      have hR : MRet E _ _ _ _ := gram_reads gr
      have hS : MScopes E _ _ _ _ := gram_reads h4
      have hb := bad_decl_func (fqs_plain hM rfl hS) (c := 'Y') (by decide)
        (bad_fenc_global (bad_fty 'A' hR (hx.2 (c!"Z" ++ rest)) (hq (c!"@Z" ++ rest))))
      have := bad_sym (head_name hs c!"@" _) (by simpa using hb)
      have hq' : (do let ts ← readParams ps seen []; pure (c!"void __cdecl " ++ showPath (s :: ss) ++ c!"(" ++ join c!", " ts ++ c!")") : Except Error Text) = .error e := by
        rw [hr2]; rfl
      refine cast (congrArg (Gives E _) hq'.symm) (show Rejects E _ e from ?_)
      simpa using this
    | ok qs =>
      rw [hr2] at hq
      obtain ⟨us, tb2, q1, q2⟩ := hq
      have hm : (c!"Y", ({} : FnKind), AdjKind.none) ∈ classCodes := by decide
      have gp : Gram E (.params false) tb' _ _ tb2 := .pFixed q2 hx.1
      have gf := Gram.fenc false hm .none (.fn 'A' false gr gp)
      have := shows_sym (sym_of (.func (sname_gram (E := E) hs {}) rfl h4 gf) (sname_gram (E := E) hs {}) rfl) rest
      rw [rev_snoc] at this
      have hn : ∀ w, ((T.qname (tl (leaf s :: ts).reverse)).pr E).out w = w ++ showPath (s :: ss) :=
        Prints.path (.cons (leaf_out E s) h1)
      have hs := q1.seq c!", "
      have ht : (T.fn (.qname (tl (leaf s :: ts).reverse)) (.sig { conv := some .Cdecl } (T.one (.prim {} .Void)) (T.one (.arr (tl us))))).text E =
          c!"void __cdecl " ++ showPath (s :: ss) ++ c!"(" ++ join c!", " qs ++ c!")" := by
        have e : CV.after E {} = [] := rfl
        have e2 : CV.this E {} = [] := by simp only [CV.this, hP.n9]; rfl
        simp only [T.text, T.pr] at *
        simp only [Pr.ofText, Pr.ofType, T.one, T.pr, Pr.cons, sigPre, sigPost, paramsOut, hP.n1, hP.n3, hP.n4, hP.n5, hP.n7, hP.n9, hP.n10, e, e2, refName] at *
        simp only [convName, msWord, hP.n8]
        simp only [Bool.not_false, Bool.and_self, Bool.or_true, Bool.true_and, if_true, hn, hs]
        simp
        rfl
      have e5 : convOf 'A' = some .Cdecl := rfl
      simp only [if_true, e5] at this
      rw [ht] at this
      have hq' : (do let ts ← readParams ps seen []; pure (c!"void __cdecl " ++ showPath (s :: ss) ++ c!"(" ++ join c!", " ts ++ c!")") : Except Error Text) =
          .ok (c!"void __cdecl " ++ showPath (s :: ss) ++ c!"(" ++ join c!", " qs ++ c!")") := by
        rw [hr2]; rfl
      refine cast (congrArg (Gives E _) hq'.symm) (show Shows E _ _ from ?_)
      simpa [throwCode, primCode] using this

omit hE

/-- **C21**: in every context, a template instantiation leaves the tables of names and parameters as they were, and is
read in the same way whatever these tables are. (Memorizing the instantiation itself is done by its context.) -/
theorem C21_own_scope {tb tb' : Tbl} {t : T} {x : Text} (h : Gram E .tmpl tb t x tb') :
    tb' = tb ∧ ∀ tb2, Gram E .tmpl tb2 t x tb2 := by
  cases h with
  | tmpl h1 h2 => exact ⟨rfl, fun tb2 => .tmpl h1 h2⟩
  | tmplTmpl h1 h2 => exact ⟨rfl, fun tb2 => .tmplTmpl h1 h2⟩

include hE in
/-- **C21** for names: whatever names came before, an instantiation of a class template is read by itself, and then counts
as one name of its context: the result is that of a plain name with the text of the instantiation. -/
theorem C21_counts_once {s t : Text} (hs : Name s) (ht : Name t) {args : Classes} (ha : args.Ok) {up : Path} (hu : up.Ok) (rest : Text) :
    Gives E (mangleRefVar s (.inst t args up) ++ rest)
      (match args.read [t] with
       | .error e => .error e
       | .ok (as, _) =>
         let whole := t ++ c!"<" ++ join c!", " as ++ c!">"
         if utf8Len whole < 2 ^ 20 then readRefVar s (.full whole up) else .error (.Io .OutOfMemory)) := by
  have h := C19_name_references hE hs (up := .inst t args up) ⟨ht, ha, hu⟩ rest
  have e : readRefVar s (.inst t args up) = (match args.read [t] with
       | .error e => .error e
       | .ok (as, _) =>
         let whole := t ++ c!"<" ++ join c!", " as ++ c!">"
         if utf8Len whole < 2 ^ 20 then readRefVar s (.full whole up) else .error (.Io .OutOfMemory)) := by
    unfold readRefVar
    rw [Path.read]
    cases args.read [t] with
    | error e => rfl
    | ok r =>
      obtain ⟨as, _⟩ := r
      simp only [bind, Except.bind, Path.read]
      by_cases hf : utf8Len (t ++ c!"<" ++ join c!", " as ++ c!">") < 2 ^ 20
      · rw [if_pos hf, if_pos hf]
      · rw [if_neg hf, if_neg hf]
  rw [← e]
  exact h

/-! ### Examples -/

/-- Inside the arguments `0` is `A` and `1` is `C`; outside, `0` is `x` and `1` is the instantiation. -/
example : demangle E0 c!"?x@?$A@VC@@V10@@1B@@3HA" = .ok (.ok c!"int B::A<class C, class A::C>::A<class C, class A::C>::x") := by
  have := C19_name_references (E := E0) rfl (s := c!"x") (by decide)
    (up := .inst c!"A" (.cls (.full c!"C" .top) (.cls (.back 1 (.back 0 .top)) .done)) (.back 1 (.full c!"B" .top)))
    (by simp only [Path.Ok, Classes.Ok, ne_eq, reduceCtorEq, not_false_eq_true]; decide) []
  have e : readRefVar c!"x" (.inst c!"A" (.cls (.full c!"C" .top) (.cls (.back 1 (.back 0 .top)) .done)) (.back 1 (.full c!"B" .top))) =
    .ok c!"int B::A<class C, class A::C>::A<class C, class A::C>::x" := by decide +kernel
  rw [e] at this
  have h := Shows.short this (by decide +kernel) (by decide +kernel)
  exact (congrArg (demangle E0) (by decide +kernel)).trans h

/-- Ten names are kept: the eleventh is not. -/
example : demangle E0 c!"?a@b@c@d@e@f@g@h@i@j@k@9@3HA" = .ok (.ok c!"int j::k::j::i::h::g::f::e::d::c::b::a") := by
  have := C19_name_references (E := E0) rfl (s := c!"a") (by decide)
    (up := .full c!"b" (.full c!"c" (.full c!"d" (.full c!"e" (.full c!"f" (.full c!"g" (.full c!"h" (.full c!"i" (.full c!"j" (.full c!"k" (.back 9 .top)))))))))))
    (by simp only [Path.Ok]; decide) []
  have e : readRefVar c!"a" (.full c!"b" (.full c!"c" (.full c!"d" (.full c!"e" (.full c!"f" (.full c!"g" (.full c!"h" (.full c!"i" (.full c!"j" (.full c!"k" (.back 9 .top))))))))))) =
    .ok c!"int j::k::j::i::h::g::f::e::d::c::b::a" := by decide +kernel
  rw [e] at this
  have h := Shows.short this (by decide +kernel) (by decide +kernel)
  exact (congrArg (demangle E0) (by decide +kernel)).trans h

/-- Two names have been seen; the digit `2` has no meaning. -/
example : demangle E0 c!"?a@b@b@2@3HA" = .ok (.error .InvalidBackRef) := by
  have := C19_name_references (E := E0) rfl (s := c!"a") (by decide) (up := .full c!"b" (.full c!"b" (.back 2 .top))) (by simp only [Path.Ok]; decide) []
  have e : readRefVar c!"a" (.full c!"b" (.full c!"b" (.back 2 .top))) = .error .InvalidBackRef := by decide +kernel
  rw [e] at this
  have h := Rejects.short this (by decide +kernel)
  exact (congrArg (demangle E0) (by decide +kernel)).trans h

/-- `int` is not memorized; `bool` and `class N::A` are. -/
example : demangle E0 c!"?f@N@@YAXH_NVA@1@01@Z" = .ok (.ok c!"void __cdecl N::f(int, bool, class N::A, bool, class N::A)") := by
  have := C20_parameter_references (E := E0) rfl (s := c!"f") (by decide) (up := .full c!"N" .top) (by simp only [Path.Ok]; decide)
    (ps := [.prim .Int, .prim .Bool, .cls (.full c!"A" (.back 1 .top)), .back 0, .back 1])
    (by intro p hp; simp only [List.mem_cons, List.not_mem_nil, or_false] at hp; rcases hp with rfl | rfl | rfl | rfl | rfl <;> simp only [Param.Ok, Path.Ok] <;> first | decide | exact ⟨by simp, by decide⟩) []
  have e : readRefFn c!"f" (.full c!"N" .top) [.prim .Int, .prim .Bool, .cls (.full c!"A" (.back 1 .top)), .back 0, .back 1] =
    .ok c!"void __cdecl N::f(int, bool, class N::A, bool, class N::A)" := by decide +kernel
  rw [e] at this
  have h := Shows.short this (by decide +kernel) (by decide +kernel)
  exact (congrArg (demangle E0) (by decide +kernel)).trans h

/-- No parameter has been memorized. -/
example : demangle E0 c!"?f@@YAXH0@Z" = .ok (.error .InvalidFunctionParameterList) := by
  have := C20_parameter_references (E := E0) rfl (s := c!"f") (by decide) (up := .top) trivial (ps := [.prim .Int, .back 0])
    (by intro p hp; simp only [List.mem_cons, List.not_mem_nil, or_false] at hp; rcases hp with rfl | rfl <;> simp only [Param.Ok] <;> decide) []
  have e : readRefFn c!"f" .top [.prim .Int, .back 0] = .error .InvalidFunctionParameterList := by decide +kernel
  rw [e] at this
  have h := Rejects.short this (by decide +kernel)
  exact (congrArg (demangle E0) (by decide +kernel)).trans h

end Props
end Undname

/-
  Property theorems C23, C38, C42, C43: tables, thunks, arrays, anonymous namespaces and local scopes.
-/
import Verif.Proof.Named

namespace Undname
namespace Props
open Spec

/-! ### Tables -/

/-- `const`/`volatile` before a blank. -/
def cvFirst (c v : Bool) : Text := (if c then c!"const " else []) ++ (if v then c!"volatile " else [])

theorem before_eq (E : Env) (c v : Bool) : CV.before E { c, v } = cvFirst c v := by
  cases c <;> cases v <;> rfl

theorem letter_cv (c v : Bool) : (Ty.cvLetter c v, ({ c, v } : CV)) ∈ cvCodes ++ memberCvCodes := by
  cases c <;> cases v <;> decide

section
variable {E : Env} (hE : E.flags = Flags.default)
include hE

/-- **C23**: the tables of a class; `tableCodes` lists `vftable`, `vbtable`, `local vftable` and the RTTI locator. -/
theorem C23_tables {code name : Text} (h : (code, name) ∈ tableCodes) {cls : List Text} (hc : ∀ s ∈ cls, Name s) {d : Char}
    (hd : d ∈ c!"67") (c v : Bool) (rest : Text) :
    Shows E (c!"?" ++ code ++ manglePath cls ++ [d, Ty.cvLetter c v] ++ c!"@" ++ rest)
      (cvFirst c v ++ showPath (name :: cls)) := by
  have hP := plain_default hE
  obtain ⟨tb, g⟩ := scopes_gram (E := E) hc {}
  have := shows_sym (Gram.table h g hd (letter_cv c v)) rest
  have ht : (T.table { c, v } (.qname ((pathT cls).snoc (.named name .nil))) .nil).text E = cvFirst c v ++ showPath (name :: cls) := by
    have hn := name_out (E := E) (leaf_out E name) cls
    simp only [leaf] at hn
    simp only [T.text, T.pr, Pr.ofText, hP.n10, before_eq, Pr.nil] at hn ⊢
    simp [hn]
  rw [ht] at this
  simpa using this

/-- **C23**: with a target. -/
theorem C23_tables_for {code name : Text} (h : (code, name) ∈ tableCodes) {cls target : List Text} (hc : ∀ s ∈ cls, Name s)
    (ht : IsPath target) {d : Char} (hd : d ∈ c!"67") (c v : Bool) (rest : Text) :
    Shows E (c!"?" ++ code ++ manglePath cls ++ [d, Ty.cvLetter c v] ++ manglePath target ++ rest)
      (cvFirst c v ++ showPath (name :: cls) ++ c!"{for `" ++ showPath target ++ c!"'}") := by
  have hP := plain_default hE
  obtain ⟨tb, g⟩ := scopes_gram (E := E) hc {}
  obtain ⟨tb', gt⟩ := qtn_gram (E := E) ht tb
  have := shows_sym (Gram.tableFor h g hd (letter_cv c v) gt) rest
  have ht : (T.table { c, v } (.qname ((pathT cls).snoc (.named name .nil))) (T.one (.qname (pathT target)))).text E =
      cvFirst c v ++ showPath (name :: cls) ++ c!"{for `" ++ showPath target ++ c!"'}" := by
    have hn := name_out (E := E) (leaf_out E name) cls
    have ho := path_out E target
    simp only [leaf] at hn
    simp only [T.text, T.pr, Pr.ofText, hP.n10, before_eq, T.one, Pr.cons] at hn ho ⊢
    simp [hn, ho]
  rw [ht] at this
  simpa using this

omit hE in
/-- **C23**: the RTTI data without a type. -/
theorem C23_rtti {code name : Text} (h : (code, name) ∈ untypedCodes) {cls : List Text} (hc : ∀ s ∈ cls, Name s) (rest : Text) :
    Shows E (c!"?" ++ code ++ manglePath cls ++ c!"8" ++ rest) (showPath (name :: cls)) := by
  obtain ⟨tb, g⟩ := scopes_gram (E := E) hc {}
  have := shows_sym (Gram.untyped h g) rest
  have ht : (T.var none (.qname ((pathT cls).snoc (.named name .nil))) .nil).text E = showPath (name :: cls) := by
    have hn := name_out (E := E) (leaf_out E name) cls
    simp only [leaf] at hn
    simp only [T.text, T.pr, Pr.ofText, Pr.nil, storageText, storageAccess] at hn ⊢
    simp [hn]
  rw [ht] at this
  simpa using this

/-! ### Thunks -/

omit hE in
/-- Classes of thunks: the code, what it says, and which numbers follow. -/
def thunkCodes : List (Text × Text × AdjKind) :=
  [(c!"G", c!"private: ", .static), (c!"H", c!"private: ", .static),
   (c!"O", c!"protected: virtual ", .static), (c!"P", c!"protected: virtual ", .static),
   (c!"W", c!"public: virtual ", .static), (c!"X", c!"public: virtual ", .static),
   (c!"$0", c!"private: virtual ", .disp), (c!"$1", c!"private: virtual ", .disp),
   (c!"$2", c!"protected: virtual ", .disp), (c!"$3", c!"protected: virtual ", .disp),
   (c!"$4", c!"public: virtual ", .disp), (c!"$5", c!"public: virtual ", .disp),
   (c!"$R0", c!"private: virtual ", .dispex), (c!"$R1", c!"private: virtual ", .dispex),
   (c!"$R2", c!"protected: virtual ", .dispex), (c!"$R3", c!"protected: virtual ", .dispex),
   (c!"$R4", c!"public: virtual ", .dispex), (c!"$R5", c!"public: virtual ", .dispex)]

omit hE in
theorem thunk_code {code what : Text} {ak : AdjKind} (h : (code, what, ak) ∈ thunkCodes) :
    ∃ k : FnKind, (code, k, ak) ∈ classCodes ∧ k.hasThis = true ∧ k.bare = false ∧ k.externC = false ∧ ak ≠ .none ∧
      kindText k = what ∧ what ≠ [] ∧ ∀ E, sp E what = what := by
  have key : ∀ p ∈ thunkCodes, ∃ q ∈ classCodes, q.1 = p.1 ∧ q.2.2 = p.2.2 ∧ q.2.1.hasThis = true ∧ q.2.1.bare = false ∧
      q.2.1.externC = false ∧ p.2.2 ≠ .none ∧ kindText q.2.1 = p.2.1 ∧ p.2.1.getLast? = some ' ' := by decide
  obtain ⟨⟨a, k, b⟩, h1, rfl, rfl, h2, h3, h4, h5, h6, h7⟩ := key _ h
  refine ⟨k, h1, h2, h3, h4, h5, h6, ?_, fun E => ?_⟩
  · rintro rfl; cases h7
  · simp only at h7
    unfold sp
    rw [h7]; rfl

/-- **C38**: a thunk prints the numbers after its class, truncated to 32 bits (`EncAdjust`). -/
theorem C38_thunks {code what : Text} {ak : AdjKind} (h : (code, what, ak) ∈ thunkCodes) {x : Text} {adj : Adjust}
    (hx : EncAdjust ak x adj) (w : Bool) {name : List Text} (hn : IsPath name) {f : Fn} (hf : f.Ok) {conv : Text}
    (hc : convWord f.cc = some conv) (hv : f.variadic = true → '(' ∉ (f.params.map (Ty.cpp E)).flatten)
    (c v : Bool) (rest : Text) :
    Shows E (c!"?" ++ manglePath name ++ code ++ x ++ Ty.wide w ++ [Ty.cvLetter c v] ++ f.mangle w ++ rest)
      (c!"[thunk]: " ++ what ++ f.cppRet E ++ conv ++ c!" " ++ showPath name ++ adj.text ++ f.cppParams E ++
        Ty.cvAfter c v ++ (if f.noexc then c!" noexcept" else [])) := by
  have hP := plain_default hE
  obtain ⟨k, hk, hthis, hb, hx', hak, rfl, hne, hsp⟩ := thunk_code h
  have hkx : { k with externC := false } = k := by cases k; simp_all
  have hz : ∀ tb, ∃ tb', Gram E .fenc tb (.thunk (f.sgOf c v k) adj (Fn.retT f.ret) f.paramsT)
      (code ++ x ++ Ty.wide w ++ [Ty.cvLetter c v] ++ f.mangle w) tb' := by
    intro tb
    obtain ⟨tb', g⟩ := Fn.ftyThis_gram (E := E) w c v hf tb
    rw [← hthis] at g
    exact ⟨tb', cast (by simp [Fn.sg, Fn.sgOf, hkx, hak]) (Gram.fenc false hk hx g)⟩
  obtain ⟨tb', g⟩ := fn_gram (E := E) hn hz {}
  have ht := thunk_text hP hc hv k hb c v hne (hsp E) adj (.qname (pathT name)) (showPath name) (path_out E name)
  have := shows_sym g rest
  rw [ht] at this
  simpa using this

/-! ### Arrays -/

/-- **C42**: an array of any number of dimensions. `bounds` writes each in brackets, with `[]` for 0. -/
theorem C42_arrays (w : Bool) {name : List Text} (hn : IsPath name) {t : Ty} (ht : Fn.IsParam t) {dims : List Nat} (hd : dims ≠ [])
    {x y : Text} (hx : EncNat x dims.length) (hy : EncDims y dims) (c v : Bool) (rest : Text) :
    Shows E (c!"?" ++ manglePath name ++ c!"3Y" ++ x ++ y ++ t.mangle w ++ [Ty.cvLetter c v] ++ rest)
      (sp E (t.cpp E ++ Ty.cvAfter c v) ++ showPath name ++ bounds dims) := by
  have hP := plain_default hE
  obtain ⟨hok, hcore⟩ := Fn.param_ok ht
  obtain ⟨hne, hp⟩ := hn
  cases name with
  | nil => exact absurd rfl hne
  | cons s p =>
    obtain ⟨tb1, h1⟩ := scopes_gram (E := E) (p := p) (fun s hs => hp s (by simp [hs])) (({} : Tbl).note s)
    obtain ⟨tb2, g⟩ := Ty.core_gram (E := E) w hok tb1
    rw [hcore] at g
    have g' := sym_of (Gram.var (sname_gram (E := E) (hp s (by simp)) {}) rfl h1 (show ('3', StorageClass.Global) ∈ storageCodes by decide)
      (.array hx hd hy g) rfl (letter_cv c v)) (sname_gram (E := E) (hp s (by simp)) {}) rfl
    rw [← pathT_cons] at g'
    have := shows_sym g' rest
    have htxt : (T.var (some .Global) (.qname (pathT (s :: p))) (T.one (T.setQ { c, v } (.array {} dims t.tree)))).text E =
        sp E (t.cpp E ++ Ty.cvAfter c v) ++ showPath (s :: p) ++ bounds dims := by
      obtain ⟨h1, h2, h3, h4⟩ := Ty.tree_pr hP t
      have ho := path_out E (s :: p)
      simp only [T.text, T.pr, Pr.ofText, T.one, Pr.cons, T.setQ, Pr.ofType, hP.n6, hP.n10, h2, h3, Ty.after_eq] at ho ⊢
      simp [storageText, storageAccess, ho]
    rw [htxt] at this
    simpa [manglePath_cons] using this

/-- **C42**: a pointer to an array (this is how a variable that is an array of arrays is written). -/
theorem C42_pointers_to_arrays (w : Bool) {name : List Text} (hn : IsPath name) {t : Ty} (ht : Fn.IsParam t) {dims : List Nat} (hd : dims ≠ [])
    {x y : Text} (hx : EncNat x dims.length) (hy : EncDims y dims) (rest : Text) :
    Shows E (c!"?" ++ manglePath name ++ c!"3P" ++ Ty.wide w ++ c!"AY" ++ x ++ y ++ t.mangle w ++ Ty.wide w ++ c!"A" ++ rest)
      (sp E (t.cpp E) ++ c!"(*" ++ showPath name ++ c!")" ++ bounds dims) := by
  have hP := plain_default hE
  obtain ⟨hok, hcore⟩ := Fn.param_ok ht
  obtain ⟨hne, hp⟩ := hn
  cases name with
  | nil => exact absurd rfl hne
  | cons s p =>
    obtain ⟨tb1, h1⟩ := scopes_gram (E := E) (p := p) (fun s hs => hp s (by simp [hs])) (({} : Tbl).note s)
    obtain ⟨tb2, g⟩ := Ty.core_gram (E := E) w hok tb1
    rw [hcore] at g
    have gp := Gram.ptr (code := c!"P") (cv := {}) (a := .Pointer) (ch := 'A') (q := {}) ⟨w, false, false⟩ (by decide) (by decide) (Gram.array hx hd hy g)
    have g' := sym_of (Gram.varPtr (ch := 'A') (q := {}) ⟨w, false, false⟩ (sname_gram (E := E) (hp s (by simp)) {}) rfl h1
      (show ('3', StorageClass.Global) ∈ storageCodes by decide) gp (by decide)) (sname_gram (E := E) (hp s (by simp)) {}) rfl
    rw [← pathT_cons] at g'
    have := shows_sym g' rest
    have htxt : (T.var (some .Global) (.qname (pathT (s :: p))) (T.one (.ptr ((CV.or {} (Ext.cv ⟨w, false, false⟩)).or (Ext.cv ⟨w, false, false⟩)) .Pointer .nil
          ((T.addQ {} (.array {} dims t.tree)).addQ {})))).text E =
        sp E (t.cpp E) ++ c!"(*" ++ showPath (s :: p) ++ c!")" ++ bounds dims := by
      obtain ⟨h1, h2, h3, h4⟩ := Ty.tree_pr hP t
      have ho := path_out E (s :: p)
      have hcv : (CV.or {} (Ext.cv ⟨w, false, false⟩)).or (Ext.cv ⟨w, false, false⟩) = {} := rfl
      have hcv2 : CV.or (CV.or {} {}) {} = ({} : CV) := rfl
      have hs : ∀ w, sp E (w ++ c!"(*") = w ++ c!"(*" := by intro w; rw [sp_append _ _ _ (by decide)]; rfl
      have ha : CV.after E {} = [] := rfl
      have hsep : CV.sep E {} = [] := rfl
      simp only [T.text, T.pr, Pr.ofText, T.one, Pr.cons, T.addQ, Pr.ofType, Pr.nil, hP.n6, hP.n10, h2, h3, hcv, hcv2, openParen, needsParens, affName, ha, hsep] at ho ⊢
      simp [storageText, storageAccess, ho, hs]
    rw [htxt] at this
    simpa [manglePath_cons, Ty.wide_code] using this

/-! ### Anonymous namespaces and local scopes -/

omit hE in
/-- A scope: a name, or an anonymous namespace with a key. -/
inductive Scope where
  | name (s : Text)
  | anon (key : Text)

namespace Scope
omit hE
def mangle : Scope → Text
  | .name s => s ++ c!"@"
  | .anon key => c!"?A" ++ key ++ c!"@"
def cpp : Scope → Text
  | .name s => s
  | .anon _ => c!"`anonymous namespace'"
def Ok : Scope → Prop
  | .name s => Name s
  | .anon key => '@' ∉ key
instance : DecidablePred Ok := fun s => by cases s <;> unfold Ok <;> infer_instance

theorem gram {E : Env} {p : List Scope} (hp : ∀ s ∈ p, s.Ok) (tb : Tbl) :
    ∃ tb', Gram E .scopes tb (pathT (p.map cpp)) (p.flatMap mangle ++ c!"@") tb' := by
  induction p generalizing tb with
  | nil => exact ⟨tb, .scNil⟩
  | cons s p ih =>
    have hs := hp s (by simp)
    have hp' : ∀ s ∈ p, s.Ok := fun s h => hp s (by simp [h])
    cases s with
    | name s =>
      obtain ⟨tb', g⟩ := ih hp' (tb.note s)
      exact ⟨tb', cast (by simp [pathT_cons, cpp, mangle]; rfl) (Gram.scCons (.scName (.uName hs)) g)⟩
    | anon key =>
      obtain ⟨tb', g⟩ := ih hp' (tb.note key)
      exact ⟨tb', cast (by simp [pathT_cons, cpp, mangle]; rfl) (Gram.scCons (.scAnon hs) g)⟩
end Scope

/-- **C43**: anonymous namespaces, anywhere among the scopes, whatever their keys. -/
theorem C43_anonymous {s : Text} (hs : Name s) {scopes : List Scope} (hp : ∀ s ∈ scopes, s.Ok) (w : Bool)
    {f : Fn} (hf : f.Ok) {conv : Text} (hc : convWord f.cc = some conv)
    (hv : f.variadic = true → '(' ∉ (f.params.map (Ty.cpp E)).flatten) (rest : Text) :
    Shows E (c!"?" ++ s ++ c!"@" ++ scopes.flatMap Scope.mangle ++ c!"@Y" ++ f.mangle w ++ rest)
      (declareFn E conv (s :: scopes.map Scope.cpp) f) := by
  obtain ⟨tb', g⟩ := Scope.gram (E := E) hp (({} : Tbl).note s)
  have := shows_global (plain_default hE) w hf hc hv (sname_gram hs {}) rfl rfl g (name_out (leaf_out E s) _) rest
  simpa [declareFn] using this

/-- **C43**: an entity inside a function: `?n??symbol` prints the symbol in quotes, and the number. The symbol is
any symbol of the grammar that fits into the output buffer. -/
theorem C43_local_scopes {s : Text} (hs : Name s) {t : T} {x : Text} {tb' : Tbl} (g : Gram E .sym (({} : Tbl).note s) t x tb')
    {y : Text} {n : Nat} (hy : EncScope y n) (hfit : Fits (c!"`" ++ t.text E ++ c!"'::`" ++ nat n ++ c!"'"))
    {outer : List Text} (ho : ∀ s ∈ outer, Name s) (w : Bool)
    {f : Fn} (hf : f.Ok) {conv : Text} (hc : convWord f.cc = some conv)
    (hv : f.variadic = true → '(' ∉ (f.params.map (Ty.cpp E)).flatten) (rest : Text) :
    Shows E (c!"?" ++ s ++ c!"@?" ++ y ++ c!"?" ++ x ++ manglePath outer ++ c!"Y" ++ f.mangle w ++ rest)
      (declareFn E conv (s :: (c!"`" ++ t.text E ++ c!"'::`" ++ nat n ++ c!"'") :: outer) f) := by
  obtain ⟨tb2, g2⟩ := scopes_gram (E := E) ho tb'
  have g3 := Gram.scCons (.scLocal hy g hfit) g2
  have e := (pathT_cons (c!"`" ++ t.text E ++ c!"'::`" ++ nat n ++ c!"'") outer).symm
  unfold leaf at e
  unfold localName at g3
  rw [e] at g3
  have := shows_global (plain_default hE) w hf hc hv (sname_gram hs {}) rfl rfl g3 (name_out (leaf_out E s) _) rest
  simpa [declareFn] using this

/-- **C43**: a function inside a function of the small language. -/
theorem C43_local_functions {s : Text} (hs : Name s) {name : List Text} (hn : IsPath name) (w : Bool)
    {f g : Fn} (hf : f.Ok) (hg : g.Ok) {conv conv' : Text} (hc : convWord f.cc = some conv) (hc' : convWord g.cc = some conv')
    (hv : f.variadic = true → '(' ∉ (f.params.map (Ty.cpp E)).flatten) (hv' : g.variadic = true → '(' ∉ (g.params.map (Ty.cpp E)).flatten)
    {y : Text} {n : Nat} (hy : EncScope y n) (hfit : Fits (c!"`" ++ declareFn E conv' name g ++ c!"'::`" ++ nat n ++ c!"'"))
    (rest : Text) :
    Shows E (c!"?" ++ s ++ c!"@?" ++ y ++ c!"?" ++ mangleFn w name g ++ c!"@Y" ++ f.mangle w ++ rest)
      (declareFn E conv [s, c!"`" ++ declareFn E conv' name g ++ c!"'::`" ++ nat n ++ c!"'"] f) := by
  have hP := plain_default hE
  obtain ⟨tb', gr⟩ := fn_gram (E := E) hn (fun tb => global_fenc w hg tb) (({} : Tbl).note s)
  have ht := fn_text hP hc' hv' {} rfl false false rfl (.qname (pathT name)) (showPath name) (path_out E name)
  have e1 : kindText {} = [] := rfl
  have e2 : Ty.cvAfter false false = [] := rfl
  have ht' : (T.fn (.qname (pathT name)) (.sig (g.sgOf false false {}) (Fn.retT g.ret) g.paramsT)).text E = declareFn E conv' name g := by
    rw [ht]; simp [declareFn, e1, e2]
  have := C43_local_scopes hE hs gr hy (by rw [ht']; exact hfit) (outer := []) (by simp) w hf hc hv rest
  rw [ht'] at this
  simpa [mangleFn, manglePath] using this

end

/-! ### Concrete cases -/

example : demangle E0 c!"??_7C@N@@6BI@M@@@" = .ok (.ok c!"const N::C::`vftable'{for `M::I'}") := by
  have := C23_tables_for (E := E0) rfl (code := c!"?_7") (name := c!"`vftable'") (by decide) (cls := [c!"C", c!"N"]) (target := [c!"I", c!"M"])
    (by decide) (by decide) (d := '6') (by decide) true false c!"@"
  have h := this.short (by decide +kernel) (by decide +kernel)
  exact (congrArg (demangle E0) (by decide +kernel)).trans (h.trans (by decide +kernel))

example : demangle E0 c!"??_R3C@@8" = .ok (.ok c!"C::`RTTI Class Hierarchy Descriptor'") := by
  have := C23_rtti (E := E0) (code := c!"?_R3") (name := c!"`RTTI Class Hierarchy Descriptor'") (by decide) (cls := [c!"C"]) (by decide) []
  have h := this.short (by decide +kernel) (by decide +kernel)
  exact (congrArg (demangle E0) (by decide +kernel)).trans (h.trans (by decide +kernel))

example : demangle E0 c!"?f@C@@W3EAAXXZ" = .ok (.ok c!"[thunk]: public: virtual void __cdecl C::f`adjustor{4}'(void)") := by
  have := C38_thunks (E := E0) rfl (code := c!"W") (what := c!"public: virtual ") (ak := .static) (by decide) (x := c!"3")
    (.static (.mk (.pos (.digit 3 (by decide))) (by decide))) true (name := [c!"f", c!"C"]) (by decide)
    (f := { cc := 'A', ret := some (.prim .Void false false), params := [] }) ⟨by intro t h; cases h; trivial, by simp⟩ rfl (by simp) false false []
  have h := this.short (by decide +kernel) (by decide +kernel)
  exact (congrArg (demangle E0) (by decide +kernel)).trans (h.trans (by decide +kernel))

/-- -4 and -8 modulo 2^32: only the last offset is unsigned. -/
example : demangle E0 c!"?f@C@@$4?3?7EAAXXZ" =
    .ok (.ok c!"[thunk]: public: virtual void __cdecl C::f`vtordisp{-4, 4294967288}'(void)") := by
  have := C38_thunks (E := E0) rfl (code := c!"$4") (what := c!"public: virtual ") (ak := .disp) (by decide) (x := c!"?3?7")
    (.disp (.mk (.neg (.digit 3 (by decide))) (by decide)) (.mk (.neg (.digit 7 (by decide))) (by decide))) true (name := [c!"f", c!"C"]) (by decide)
    (f := { cc := 'A', ret := some (.prim .Void false false), params := [] }) ⟨by intro t h; cases h; trivial, by simp⟩ rfl (by simp) false false []
  have h := this.short (by decide +kernel) (by decide +kernel)
  exact (congrArg (demangle E0) (by decide +kernel)).trans (h.trans (by decide +kernel))

example : demangle E0 c!"?x@@3Y2A@13HB" = .ok (.ok c!"int const x[][2][4]") := by
  have := C42_arrays (E := E0) rfl true (name := [c!"x"]) (by decide) (t := .prim .Int false false) (by decide) (dims := [0, 2, 4]) (by decide)
    (.digit 2 (by decide)) (.cons (.hex c!"A" (by decide)) (.cons (.digit 1 (by decide)) (.cons (.digit 3 (by decide)) .nil))) true false []
  have h := this.short (by decide +kernel) (by decide +kernel)
  exact (congrArg (demangle E0) (by decide +kernel)).trans (h.trans (by decide +kernel))

example : demangle E0 c!"?x@@3PEAY01DEA" = .ok (.ok c!"char (*x)[2]") := by
  have := C42_pointers_to_arrays (E := E0) rfl true (name := [c!"x"]) (by decide) (t := .prim .Char false false) (by decide) (dims := [2]) (by decide)
    (.digit 0 (by decide)) (.cons (.digit 1 (by decide)) .nil) []
  have h := this.short (by decide +kernel) (by decide +kernel)
  exact (congrArg (demangle E0) (by decide +kernel)).trans (h.trans (by decide +kernel))

example : demangle E0 c!"?f@C@?A0x1234@N@@YAHXZ" = .ok (.ok c!"int __cdecl N::`anonymous namespace'::C::f(void)") := by
  have := C43_anonymous (E := E0) rfl (s := c!"f") (by decide) (scopes := [.name c!"C", .anon c!"0x1234", .name c!"N"]) (by decide) true
    (f := { cc := 'A', ret := some (.prim .Int false false), params := [] }) ⟨by intro t h; cases h; trivial, by simp⟩ rfl (by simp) []
  have h := this.short (by decide +kernel) (by decide +kernel)
  exact (congrArg (demangle E0) (by decide +kernel)).trans (h.trans (by decide +kernel))

example : demangle E0 c!"?f@?BI@??g@N@@YAHXZ@YAHXZ" = .ok (.ok c!"int __cdecl `int __cdecl N::g(void)'::`24'::f(void)") := by
  have h : Fn.Ok { cc := 'A', ret := some (.prim .Int false false), params := [] } := ⟨by intro t h; cases h; trivial, by simp⟩
  have := C43_local_functions (E := E0) rfl (s := c!"f") (by decide) (name := [c!"g", c!"N"]) (by decide) true h h rfl rfl (by simp) (by simp)
    (.hex 'B' c!"I" (by decide) (by decide) (by decide)) (by unfold Fits; decide +kernel) []
  have h := this.short (by decide +kernel) (by decide +kernel)
  exact (congrArg (demangle E0) (by decide +kernel)).trans (h.trans (by decide +kernel))

end Props
end Undname

/-
  At most two nodes per character.
-/
import Verif.Exact.Counted

namespace Undname.Spec

theorem noteCost_le (tb : Tbl) (s : Text) : tb.noteCost s ≤ 1 := by unfold Tbl.noteCost; split <;> omega

theorem EncNat.pos {x : Text} {n : Nat} (h : EncNat x n) : 1 ≤ x.length := by
  cases h <;> simp

theorem EncDims.len {x : Text} {l : List Nat} (h : EncDims x l) : l.length ≤ x.length := by
  induction h with
  | nil => simp
  | cons h _ ih =>
    have := h.pos
    simp only [List.length_append, List.length_cons]
    omega

theorem codes_pos : (∀ p ∈ refCodes, 1 ≤ p.1.length) ∧ (∀ p ∈ ptrCodes, 1 ≤ p.1.length) ∧ (∀ p ∈ classCodes, 1 ≤ p.1.length) ∧
    (∀ p ∈ tableCodes, 1 ≤ p.1.length) ∧ (∀ p ∈ untypedCodes, 1 ≤ p.1.length) := by decide

theorem primCode_pos (k : PrimitiveKind) : 1 ≤ (primCode k).length := by cases k <;> decide
theorem tagCode_pos (k : TagKind) : 1 ≤ (tagCode k).length := by cases k <;> decide

theorem EncScope.pos {x : Text} {n : Nat} (h : EncScope x n) : 1 ≤ x.length := by
  cases h <;> simp

theorem hashed_length (u : Text) : (hashed u).length = u.length + 4 := by simp [hashed]

/-- Room left by a phrase: an instantiation is memorized in its context. -/
def slack : Cat → Nat
  | .tmpl => 2
  | _ => 0

set_option linter.unusedSimpArgs false in
theorem GramN.count_slack {E : Env} {cat : Cat} {tb tb' : Tbl} {t : T} {x : Text} {k : Nat} (h : GramN E cat tb t x tb' k) :
    k + slack cat ≤ 2 * x.length := by
  have nc := noteCost_le
  obtain ⟨c1, c2, c3, c4, c5⟩ := codes_pos
  induction h with
  | prim e0 => have := primCode_pos e0; clear c1 c2 c3 c4 c5; simp only [slack, List.length_append, List.length_cons, List.length_nil, hashed_length] at *; grind
  | tag e0 _ ih0 => have := tagCode_pos e0; clear c1 c2 c3 c4 c5; simp only [slack, List.length_append, List.length_cons, List.length_nil, hashed_length] at *; grind
  | ptr e0 h0 h1 _ ih2 => have := c1 _ h0; clear c1 c2 c3 c4 c5; simp only [slack, List.length_append, List.length_cons, List.length_nil, hashed_length] at *; grind
  | ptrRefMember e0 h0 h1 h2 _ ih3 => have := c1 _ h0; clear c1 c2 c3 c4 c5; simp only [slack, List.length_append, List.length_cons, List.length_nil, hashed_length] at *; grind
  | ptrFn h0 _ ih1 => have := c1 _ h0; clear c1 c2 c3 c4 c5; simp only [slack, List.length_append, List.length_cons, List.length_nil, hashed_length] at *; grind
  | ptrMember e0 h0 h1 _ _ ih2 ih3 => have := c2 _ h0; clear c1 c2 c3 c4 c5; simp only [slack, List.length_append, List.length_cons, List.length_nil, hashed_length] at *; grind
  | ptrMemberFn h0 _ _ ih1 ih2 => have := c2 _ h0; clear c1 c2 c3 c4 c5; simp only [slack, List.length_append, List.length_cons, List.length_nil, hashed_length] at *; grind
  | array h0 h1 h2 _ ih3 => have := h2.len; clear c1 c2 c3 c4 c5; simp only [slack, List.length_append, List.length_cons, List.length_nil, hashed_length] at *; grind
  | arrayQ h0 h1 h2 h3 _ ih4 => have := h2.len; clear c1 c2 c3 c4 c5; simp only [slack, List.length_append, List.length_cons, List.length_nil, hashed_length] at *; grind
  | fnType _ ih0 => clear c1 c2 c3 c4 c5; simp only [slack, List.length_append, List.length_cons, List.length_nil, hashed_length] at *; grind
  | fnTypeThis _ ih0 => clear c1 c2 c3 c4 c5; simp only [slack, List.length_append, List.length_cons, List.length_nil, hashed_length] at *; grind
  | custom _ ih0 => clear c1 c2 c3 c4 c5; simp only [slack, List.length_append, List.length_cons, List.length_nil, hashed_length] at *; grind
  | customOdd h0 h1 => clear c1 c2 c3 c4 c5; simp only [slack, List.length_append, List.length_cons, List.length_nil, hashed_length] at *; grind
  | resPlain _ h1 ih0 => clear c1 c2 c3 c4 c5; simp only [slack, List.length_append, List.length_cons, List.length_nil, hashed_length] at *; grind
  | resQual h0 _ ih1 => clear c1 c2 c3 c4 c5; simp only [slack, List.length_append, List.length_cons, List.length_nil, hashed_length] at *; grind
  | retNone => clear c1 c2 c3 c4 c5; simp only [slack, List.length_append, List.length_cons, List.length_nil, hashed_length] at *; grind
  | retSome _ ih0 => clear c1 c2 c3 c4 c5; simp only [slack, List.length_append, List.length_cons, List.length_nil, hashed_length] at *; grind
  | pNil => clear c1 c2 c3 c4 c5; simp only [slack, List.length_append, List.length_cons, List.length_nil, hashed_length] at *; grind
  | pBack h0 h1 _ ih2 => clear c1 c2 c3 c4 c5; simp only [slack, List.length_append, List.length_cons, List.length_nil, hashed_length] at *; grind
  | pLetter _ h1 _ ih0 ih2 => clear c1 c2 c3 c4 c5; simp only [slack, List.length_append, List.length_cons, List.length_nil, hashed_length] at *; grind
  | pType _ h1 _ ih0 ih2 => clear c1 c2 c3 c4 c5; simp only [slack, List.length_append, List.length_cons, List.length_nil, hashed_length] at *; grind
  | pVoid => clear c1 c2 c3 c4 c5; simp only [slack, List.length_append, List.length_cons, List.length_nil, hashed_length] at *; grind
  | pFixed _ h1 ih0 => clear c1 c2 c3 c4 c5; simp only [slack, List.length_append, List.length_cons, List.length_nil, hashed_length] at *; grind
  | pVariadic _ h1 ih0 => clear c1 c2 c3 c4 c5; simp only [slack, List.length_append, List.length_cons, List.length_nil, hashed_length] at *; grind
  | fn e0 e1 _ _ ih0 ih1 => clear c1 c2 c3 c4 c5; simp only [slack, List.length_append, List.length_cons, List.length_nil, hashed_length] at *; grind
  | fnThis e0 e1 e2 e3 h0 _ _ ih1 ih2 => clear c1 c2 c3 c4 c5; simp only [slack, List.length_append, List.length_cons, List.length_nil, hashed_length] at *; grind
  | uBack h0 h1 => clear c1 c2 c3 c4 c5; simp only [slack, List.length_append, List.length_cons, List.length_nil, hashed_length] at *; grind
  | uName h0 => have := List.length_pos_iff.2 h0.ne; clear c1 c2 c3 c4 c5; simp only [slack, List.length_append, List.length_cons, List.length_nil, hashed_length] at *; grind
  | uTmpl _ h1 h2 ih0 => clear c1 c2 c3 c4 c5; simp only [slack, List.length_append, List.length_cons, List.length_nil, hashed_length] at *; grind
  | fName h0 => have := List.length_pos_iff.2 h0.ne; clear c1 c2 c3 c4 c5; simp only [slack, List.length_append, List.length_cons, List.length_nil, hashed_length] at *; grind
  | fOp h0 => clear c1 c2 c3 c4 c5; simp only [slack, List.length_append, List.length_cons, List.length_nil, hashed_length] at *; grind
  | fOpUnder h0 => clear c1 c2 c3 c4 c5; simp only [slack, List.length_append, List.length_cons, List.length_nil, hashed_length] at *; grind
  | fOpDunder h0 => clear c1 c2 c3 c4 c5; simp only [slack, List.length_append, List.length_cons, List.length_nil, hashed_length] at *; grind
  | fOpNone h0 => clear c1 c2 c3 c4 c5; simp only [slack, List.length_append, List.length_cons, List.length_nil, hashed_length] at *; grind
  | fOpNone2 h0 => clear c1 c2 c3 c4 c5; simp only [slack, List.length_append, List.length_cons, List.length_nil, hashed_length] at *; grind
  | fLit h0 h1 => clear c1 c2 c3 c4 c5; simp only [slack, List.length_append, List.length_cons, List.length_nil, hashed_length] at *; grind
  | fCtor => clear c1 c2 c3 c4 c5; simp only [slack, List.length_append, List.length_cons, List.length_nil, hashed_length] at *; grind
  | fDtor => clear c1 c2 c3 c4 c5; simp only [slack, List.length_append, List.length_cons, List.length_nil, hashed_length] at *; grind
  | fConv => clear c1 c2 c3 c4 c5; simp only [slack, List.length_append, List.length_cons, List.length_nil, hashed_length] at *; grind
  | tmpl _ _ ih0 ih1 => clear c1 c2 c3 c4 c5; simp only [slack, List.length_append, List.length_cons, List.length_nil, hashed_length] at *; grind
  | tmplTmpl _ _ ih0 ih1 => clear c1 c2 c3 c4 c5; simp only [slack, List.length_append, List.length_cons, List.length_nil, hashed_length] at *; grind
  | sBack h0 h1 => clear c1 c2 c3 c4 c5; simp only [slack, List.length_append, List.length_cons, List.length_nil, hashed_length] at *; grind
  | sFull _ ih0 => clear c1 c2 c3 c4 c5; simp only [slack, List.length_append, List.length_cons, List.length_nil, hashed_length] at *; grind
  | sTmpl _ ih0 => clear c1 c2 c3 c4 c5; simp only [slack, List.length_append, List.length_cons, List.length_nil, hashed_length] at *; grind
  | scName _ ih0 => clear c1 c2 c3 c4 c5; simp only [slack, List.length_append, List.length_cons, List.length_nil, hashed_length] at *; grind
  | scAnon h0 => clear c1 c2 c3 c4 c5; simp only [slack, List.length_append, List.length_cons, List.length_nil, hashed_length] at *; grind
  | scLocal h0 _ h2 ih1 => clear c1 c2 c3 c4 c5; simp only [slack, List.length_append, List.length_cons, List.length_nil, hashed_length] at *; grind
  | scNil => clear c1 c2 c3 c4 c5; simp only [slack, List.length_append, List.length_cons, List.length_nil, hashed_length] at *; grind
  | scCons _ _ ih0 ih1 => clear c1 c2 c3 c4 c5; simp only [slack, List.length_append, List.length_cons, List.length_nil, hashed_length] at *; grind
  | scOdd h0 h1 h2 h3 _ ih4 => clear c1 c2 c3 c4 c5; simp only [slack, List.length_append, List.length_cons, List.length_nil, hashed_length] at *; grind
  | scLocalHash h0 h1 h2 h3 _ ih4 => clear c1 c2 c3 c4 c5; simp only [slack, List.length_append, List.length_cons, List.length_nil, hashed_length] at *; grind
  | qtnOdd h0 h1 _ ih2 => clear c1 c2 c3 c4 c5; simp only [slack, List.length_append, List.length_cons, List.length_nil, hashed_length] at *; grind
  | qtn _ _ ih0 ih1 => clear c1 c2 c3 c4 c5; simp only [slack, List.length_append, List.length_cons, List.length_nil, hashed_length] at *; grind
  | taNil => clear c1 c2 c3 c4 c5; simp only [slack, List.length_append, List.length_cons, List.length_nil, hashed_length] at *; grind
  | taPack h0 _ ih1 => clear c1 c2 c3 c4 c5; simp only [slack, List.length_append, List.length_cons, List.length_nil, hashed_length] at *; grind
  | taCons _ _ ih0 ih1 => clear c1 c2 c3 c4 c5; simp only [slack, List.length_append, List.length_cons, List.length_nil, hashed_length] at *; grind
  | taAuto _ _ _ ih0 ih1 ih2 => clear c1 c2 c3 c4 c5; simp only [slack, List.length_append, List.length_cons, List.length_nil, hashed_length] at *; grind
  | taConsN _ h1 _ ih0 ih2 => clear c1 c2 c3 c4 c5; simp only [slack, List.length_append, List.length_cons, List.length_nil, hashed_length] at *; grind
  | taAutoN _ _ h2 _ ih0 ih1 ih3 => clear c1 c2 c3 c4 c5; simp only [slack, List.length_append, List.length_cons, List.length_nil, hashed_length] at *; grind
  | nNull => clear c1 c2 c3 c4 c5; simp only [slack, List.length_append, List.length_cons, List.length_nil, hashed_length] at *; grind
  | nHash h0 h1 => clear c1 c2 c3 c4 c5; simp only [slack, List.length_append, List.length_cons, List.length_nil, hashed_length] at *; grind
  | nHashRef h0 => clear c1 c2 c3 c4 c5; simp only [slack, List.length_append, List.length_cons, List.length_nil, hashed_length] at *; grind
  | aHash h0 h1 h2 h3 => clear c1 c2 c3 c4 c5; simp only [slack, List.length_append, List.length_cons, List.length_nil, hashed_length] at *; grind
  | aTypeAuto _ h1 ih0 => clear c1 c2 c3 c4 c5; simp only [slack, List.length_append, List.length_cons, List.length_nil, hashed_length] at *; grind
  | aType _ ih0 => clear c1 c2 c3 c4 c5; simp only [slack, List.length_append, List.length_cons, List.length_nil, hashed_length] at *; grind
  | aTypeB _ ih0 => clear c1 c2 c3 c4 c5; simp only [slack, List.length_append, List.length_cons, List.length_nil, hashed_length] at *; grind
  | aTypeC h0 _ ih1 => clear c1 c2 c3 c4 c5; simp only [slack, List.length_append, List.length_cons, List.length_nil, hashed_length] at *; grind
  | aName _ ih0 => clear c1 c2 c3 c4 c5; simp only [slack, List.length_append, List.length_cons, List.length_nil, hashed_length] at *; grind
  | aInt h0 => clear c1 c2 c3 c4 c5; simp only [slack, List.length_append, List.length_cons, List.length_nil, hashed_length] at *; grind
  | aNull h0 h1 h2 => clear c1 c2 c3 c4 c5; simp only [slack, List.length_append, List.length_cons, List.length_nil, hashed_length] at *; grind
  | aSym h0 _ h2 h3 h4 ih1 => clear c1 c2 c3 c4 c5; simp only [slack, List.length_append, List.length_cons, List.length_nil, hashed_length] at *; grind
  | aRef _ ih0 => clear c1 c2 c3 c4 c5; simp only [slack, List.length_append, List.length_cons, List.length_nil, hashed_length] at *; grind
  | aData h0 h1 => clear c1 c2 c3 c4 c5; simp only [slack, List.length_append, List.length_cons, List.length_nil, hashed_length] at *; grind
  | fenc e0 h0 h1 _ ih2 => have := c3 _ h0; clear c1 c2 c3 c4 c5; simp only [slack, List.length_append, List.length_cons, List.length_nil, hashed_length] at *; grind
  | fencBare e0 => clear c1 c2 c3 c4 c5; simp only [slack, List.length_append, List.length_cons, List.length_nil, hashed_length] at *; grind
  | var _ h1 _ h3 _ h5 h6 ih0 ih2 ih4 => clear c1 c2 c3 c4 c5; simp only [slack, List.length_append, List.length_cons, List.length_nil, hashed_length] at *; grind
  | varPtr e0 _ h1 _ h3 _ h5 ih0 ih2 ih4 => clear c1 c2 c3 c4 c5; simp only [slack, List.length_append, List.length_cons, List.length_nil, hashed_length] at *; grind
  | varMemberPtr e0 _ h1 _ h3 _ h5 _ ih0 ih2 ih4 ih6 => clear c1 c2 c3 c4 c5; simp only [slack, List.length_append, List.length_cons, List.length_nil, hashed_length] at *; grind
  | varStructor _ _ h2 h3 _ h5 h6 ih0 ih1 ih4 => clear c1 c2 c3 c4 c5; simp only [slack, List.length_append, List.length_cons, List.length_nil, hashed_length] at *; grind
  | varStructorPtr e0 _ _ h2 h3 _ h5 ih0 ih1 ih4 => clear c1 c2 c3 c4 c5; simp only [slack, List.length_append, List.length_cons, List.length_nil, hashed_length] at *; grind
  | varStructorMemberPtr e0 _ _ h2 h3 _ h5 _ ih0 ih1 ih4 ih6 => clear c1 c2 c3 c4 c5; simp only [slack, List.length_append, List.length_cons, List.length_nil, hashed_length] at *; grind
  | func _ h1 _ _ ih0 ih2 ih3 => clear c1 c2 c3 c4 c5; simp only [slack, List.length_append, List.length_cons, List.length_nil, hashed_length] at *; grind
  | structor _ _ h2 _ ih0 ih1 ih3 => clear c1 c2 c3 c4 c5; simp only [slack, List.length_append, List.length_cons, List.length_nil, hashed_length] at *; grind
  | conv _ _ _ ih0 ih1 ih2 => clear c1 c2 c3 c4 c5; simp only [slack, List.length_append, List.length_cons, List.length_nil, hashed_length] at *; grind
  | convThunk _ _ _ ih0 ih1 ih2 => clear c1 c2 c3 c4 c5; simp only [slack, List.length_append, List.length_cons, List.length_nil, hashed_length] at *; grind
  | sym _ h1 ih0 => clear c1 c2 c3 c4 c5; simp only [slack, List.length_append, List.length_cons, List.length_nil, hashed_length] at *; grind
  | hashLocator h0 => clear c1 c2 c3 c4 c5; simp only [slack, List.length_append, List.length_cons, List.length_nil, hashed_length] at *; grind
  | narrow h0 h1 h2 h3 h4 => clear c1 c2 c3 c4 c5; simp only [slack, List.length_append, List.length_cons, List.length_nil, hashed_length] at *; grind
  | wide h0 h1 h2 h3 h4 => clear c1 c2 c3 c4 c5; simp only [slack, List.length_append, List.length_cons, List.length_nil, hashed_length] at *; grind
  | table h0 _ h2 h3 ih1 => have := c4 _ h0; clear c1 c2 c3 c4 c5; simp only [slack, List.length_append, List.length_cons, List.length_nil, hashed_length] at *; grind
  | tableFor h0 _ h2 h3 _ ih1 ih4 => have := c4 _ h0; clear c1 c2 c3 c4 c5; simp only [slack, List.length_append, List.length_cons, List.length_nil, hashed_length] at *; grind
  | vcall e0 _ h1 ih0 => clear c1 c2 c3 c4 c5; simp only [slack, List.length_append, List.length_cons, List.length_nil, hashed_length] at *; grind
  | untyped h0 _ ih1 => have := c5 _ h0; clear c1 c2 c3 c4 c5; simp only [slack, List.length_append, List.length_cons, List.length_nil, hashed_length] at *; grind
  | baseDescr h0 h1 h2 h3 h4 h5 h6 h7 _ ih8 => clear c1 c2 c3 c4 c5; simp only [slack, List.length_append, List.length_cons, List.length_nil, hashed_length] at *; grind
  | guardVar e0 e1 _ h1 h2 ih0 => clear c1 c2 c3 c4 c5; simp only [slack, List.length_append, List.length_cons, List.length_nil, hashed_length] at *; grind
  | dynVar e0 e1 _ h1 _ ih0 ih2 => clear c1 c2 c3 c4 c5; simp only [slack, List.length_append, List.length_cons, List.length_nil, hashed_length] at *; grind
  | dynFn e0 _ h1 ih0 => clear c1 c2 c3 c4 c5; simp only [slack, List.length_append, List.length_cons, List.length_nil, hashed_length] at *; grind
  | guardEnd e0 e1 _ ih0 => clear c1 c2 c3 c4 c5; simp only [slack, List.length_append, List.length_cons, List.length_nil, hashed_length] at *; grind
  | typeinfo _ ih0 => clear c1 c2 c3 c4 c5; simp only [slack, List.length_append, List.length_cons, List.length_nil, hashed_length] at *; grind
  | rttiType _ ih0 => clear c1 c2 c3 c4 c5; simp only [slack, List.length_append, List.length_cons, List.length_nil, hashed_length] at *; grind

theorem GramN.count_le {E : Env} {cat : Cat} {tb tb' : Tbl} {t : T} {x : Text} {k : Nat} (h : GramN E cat tb t x tb' k) :
    k ≤ 2 * x.length := by
  have := h.count_slack
  omega

theorem DenotesN.count_le {E : Env} {m : Text} {t : T} {n : Nat} (h : DenotesN E m t n) : n ≤ 2 * m.length := by
  rcases h with ⟨x, rest, tb', rfl, h⟩ | ⟨tb', h⟩ | ⟨u, rest, rfl, _, _, _, rfl⟩
  · have := h.count_le
    rw [List.length_append]
    omega
  · exact h.count_le
  · rw [List.length_append, hashed_length]
    omega

end Undname.Spec

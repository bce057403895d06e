/-
  Reading parameter lists, and how types start.
-/
import Verif.Proof.ReadTl

namespace Undname.Spec.Cxx

/-! ### First words -/

def firstWord (X : Text) : Text := X.takeWhile idc

theorem firstWord_eq {w r : Text} (hw : ∀ c ∈ w, idc c = true) (hr : NI r) : firstWord (w ++ r) = w := by
  induction w with
  | nil =>
    cases r with
    | nil => rfl
    | cons c r => simp [firstWord, hr c rfl]
  | cons c w ih =>
    have := ih (fun d hd => hw d (by simp [hd]))
    rw [firstWord] at this ⊢
    rw [List.cons_append, List.takeWhile_cons, if_pos (hw c (by simp)), this]

theorem firstWord_append {x : Text} (h : x.any (fun c => !idc c) = true) (r : Text) : firstWord (x ++ r) = firstWord x := by
  induction x with
  | nil => simp at h
  | cons c x ih =>
    rw [firstWord, firstWord, List.cons_append, List.takeWhile_cons, List.takeWhile_cons]
    by_cases hc : idc c = true
    · rw [if_pos hc, if_pos hc]
      simp only [List.any_cons, hc, Bool.not_true, Bool.false_or] at h
      have := ih h
      rw [firstWord, firstWord] at this
      rw [this]
    · rw [if_neg hc, if_neg hc]

/-- The first words of types. -/
def tyWords : List Text :=
  [c!"void", c!"bool", c!"char", c!"signed", c!"unsigned", c!"char8_t", c!"char16_t", c!"char32_t", c!"short", c!"int",
   c!"long", c!"__int64", c!"wchar_t", c!"float", c!"double", c!"std", c!"auto", c!"decltype", c!"class", c!"struct", c!"union", c!"enum"]

theorem prim_first : ∀ k ∈ allPrims, firstWord (primName k) ∈ tyWords ∧ (firstWord (primName k) = primName k ∧ k ≠ .DecltypeAuto ∨ (primName k).any (fun c => !idc c) = true) := by
  decide +kernel
theorem tag_first : ∀ k ∈ allTags, firstWord (tagName k ++ c!" ") ∈ tyWords := by decide +kernel
theorem tag_any : ∀ k ∈ allTags, (tagName k ++ c!" ").any (fun c => !idc c) = true := by decide +kernel

theorem BK.first {E : Env} {b : BK} {Y : Text} (hY : BaseEnd E (b.text E) Y) : firstWord (b.text E ++ Y) ∈ tyWords := by
  cases b with
  | prim k =>
    simp only [BK.text] at hY ⊢
    obtain ⟨h1, h2⟩ := prim_first k (mem_prims k)
    rcases h2 with ⟨h2, h3⟩ | h2
    · have ni := hY.ni (wordEnd_of_any (prim_wordEnd k (mem_prims k) h3))
      have hw : ∀ c ∈ primName k, idc c = true := by
        rw [← h2]; intro c hc; exact List.all_eq_true.mp (List.all_takeWhile (p := idc) (l := primName k)) c hc
      rw [firstWord_eq hw ni, ← h2]; exact h1
    · rw [firstWord_append h2]; exact h1
  | tag k p =>
    rw [BK.text, List.append_assoc (tagName k ++ c!" "), firstWord_append (tag_any k (mem_tags k))]
    exact tag_first k (mem_tags k)

theorem Ty.first {E : Env} (hE : E.flags = Flags.default) {key : Text} {t : Ty} (h : t.plain key = true) {X : Text} (hX : Follow E (t.left E) X) :
    firstWord (t.left E ++ X) ∈ tyWords := by
  obtain ⟨b1, l1, c1⟩ := Ty.lays_ok h
  have e1 := Ty.left_eq hE t h
  rw [e1] at hX ⊢
  have fl : Follow E (t.baseText E) (adds E (t.baseText E) t.lays ++ X) := by
    cases hl : t.lays with
    | nil => rw [hl] at hX; simpa [adds] using hX
    | cons l L => rw [adds, List.append_assoc]; exact Lay.follow (l1 l (by simp [hl])) _
  have := BK.first (BaseEnd.of (P := t.bk.text E) (c := t.cvOf.1) (v := t.cvOf.2) fl)
  rw [← List.append_assoc (t.bk.text E)] at this
  rw [List.append_assoc]
  exact this

theorem first_head {X : Text} (h : firstWord X ∈ tyWords) : ∃ c r, X = c :: r ∧ idc c = true := by
  cases X with
  | nil => exact absurd h (by decide)
  | cons c r =>
    refine ⟨c, r, rfl, ?_⟩
    rw [firstWord, List.takeWhile_cons] at h
    by_cases hc : idc c = true
    · exact hc
    · rw [if_neg hc] at h; exact absurd h (by decide)

/-! ### Parameters -/

def Tys.toList : Tys → List Ty
  | .nil => []
  | .cons t ts => t :: ts.toList

theorem Tys.toList_inj : ∀ {p q : Tys}, p.toList = q.toList → p = q
  | .nil, .nil, _ => rfl
  | .nil, .cons .., h => by simp [Tys.toList] at h
  | .cons .., .nil, h => by simp [Tys.toList] at h
  | .cons s p, .cons t q, h => by
    simp [Tys.toList] at h
    rw [h.1, Tys.toList_inj h.2]

theorem Tys.list_eq (E : Env) : ∀ ts : Tys, ts.list E = ts.toList.map (Ty.cpp E)
  | .nil => by rw [Tys.list, Tys.toList]; rfl
  | .cons t ts => by rw [Tys.list, Tys.toList, Tys.list_eq E ts]; rfl

theorem Tys.plain_mem {key : Text} : ∀ {ts : Tys}, ts.plain key = true → ∀ t ∈ ts.toList, t.plain key = true ∧ isVoid t = false
  | .nil, _, t, ht => by simp [Tys.toList] at ht
  | .cons s p, h, t, ht => by
    simp [Tys.plain] at h
    simp [Tys.toList] at ht
    rcases ht with rfl | ht
    · exact ⟨h.1.2, h.1.1⟩
    · exact Tys.plain_mem h.2 t ht

theorem typed_abs (E : Env) (t : Ty) : typed E t .abs = t.cpp E := rfl

theorem ty_read {E : Env} (hE : E.flags = Flags.default) {key : Text} {t t' : Ty} (ht : t.plain key = true) (ht' : t'.plain key = true)
    (rt : TyParts E key t) {a b : Text} (ha : Stop a) (hb : Stop b) (e : t.cpp E ++ a = t'.cpp E ++ b) : t = t' ∧ a = b := by
  obtain ⟨h1, -, h2⟩ := typed_read hE (u := .abs) (u' := .abs) ht ht' trivial trivial rt trivial ha hb e
  exact ⟨h1, h2⟩

theorem typed_first {E : Env} (hE : E.flags = Flags.default) {key : Text} {t : Ty} {u : Tl} (ht : t.plain key = true) (hu : u.Ok key) {a : Text} (ha : Stop a) :
    firstWord (typed E t u ++ a) ∈ tyWords := by
  rw [typed, List.append_assoc, List.append_assoc]
  refine Ty.first hE ht (Tl.follow hu _ ?_)
  rw [Ty.right_eq hE]; exact rights_stop _ ha

theorem ty_head {E : Env} (hE : E.flags = Flags.default) {key : Text} {t : Ty} (ht : t.plain key = true) (a : Text) :
    ∃ c r, t.cpp E ++ a = c :: r ∧ idc c = true := by
  obtain ⟨c, r, h, h'⟩ := first_head (typed_first hE ht (u := .abs) trivial (a := []) (by simp [Stop]))
  rw [typed_abs, List.append_nil] at h
  rw [h]
  exact ⟨c, _, rfl, h'⟩

theorem void_parts (E : Env) (key : Text) : TyParts E key (.prim .Void false false) := by
  refine ⟨?_, ?_, ?_⟩
  · simp [Ty.bk, BK.Rd]
  · simp [Ty.lays]
  · simp [Ty.lays]

theorem params_read {E : Env} (hE : E.flags = Flags.default) {key : Text} {ps : Tys} (hp : ps.plain key = true)
    (rd : ∀ t ∈ ps.toList, TyParts E key t) : ParamsRd E key ps := by
  intro va ps' va' hp' a b e
  have pl := Tys.plain_mem hp
  have pl' := Tys.plain_mem hp'
  rw [paramsCpp, paramsCpp, Tys.list_eq, Tys.list_eq] at e
  suffices h : ps.toList = ps'.toList ∧ va = va' ∧ a = b from ⟨Tys.toList_inj h.1, h.2⟩
  generalize ps.toList = l at *
  generalize ps'.toList = l' at *
  have vr : ∀ {y : Ty} {c : Text}, y.plain key = true → isVoid y = false → Stop c → ∀ a, c!"void" ++ ')' :: a ≠ y.cpp E ++ c := by
    intro y c hy hv hc a e
    have := ty_read hE (t := .prim .Void false false) rfl hy (void_parts E key) (a := ')' :: a) (b := c) (Stop.cons (by decide)) hc e
    rw [← this.1] at hv
    simp [isVoid] at hv
  have st : ∀ {m : List Ty} {c : Text}, Stop c → Stop (tails c!", " (Ty.cpp E) m ++ c) := by
    intro m c hc
    cases m with
    | nil => exact hc
    | cons w m => rw [tails_cons]; exact Stop.cons (by decide)
  have ve : ∀ {va : Bool} {a : Text}, Stop ((if va then c!", ..." else []) ++ (c!")" ++ a)) := by
    intro va a; cases va <;> exact Stop.cons (by decide)
  have dots : ∀ {y : Ty} {c r : Text}, y.plain key = true → y.cpp E ++ c ≠ '.' :: r := by
    intro y c r hy e
    obtain ⟨d, s, h, h'⟩ := ty_head hE hy c
    rw [h] at e
    injection e with e _
    rw [e] at h'; revert h'; decide
  cases l with
  | nil =>
    cases l' with
    | nil =>
      cases va <;> cases va' <;> simp at e ⊢
      · exact e
      · exact e
    | cons y l' =>
      rw [join_cons] at e
      simp only [List.map_nil, List.isEmpty_nil, if_true, List.append_assoc, List.append_cancel_left_eq, List.map_cons, List.isEmpty_cons, Bool.false_eq_true, if_false] at e
      have hy := pl' y (by simp)
      cases va
      · exact absurd e (vr hy.1 hy.2 (st ve) a)
      · exact absurd e.symm (dots hy.1)
  | cons x l =>
    cases l' with
    | nil =>
      rw [join_cons] at e
      simp only [List.map_nil, List.isEmpty_nil, if_true, List.append_assoc, List.append_cancel_left_eq, List.map_cons, List.isEmpty_cons, Bool.false_eq_true, if_false] at e
      have hx := pl x (by simp)
      cases va'
      · exact absurd e.symm (vr hx.1 hx.2 (st ve) b)
      · exact absurd e (dots hx.1)
    | cons y l' =>
      rw [join_cons, join_cons] at e
      simp only [List.append_assoc, List.append_cancel_left_eq, List.map_cons, List.isEmpty_cons, Bool.false_eq_true, if_false] at e
      obtain ⟨h1, e⟩ := ty_read hE (pl x (by simp)).1 (pl' y (by simp)).1 (rd x (by simp)) (st ve) (st ve) e
      have na : ∀ {va : Bool} {a : Text}, ∀ (y : Ty) (r : Text), y.plain key = true → Stop r → (if va then c!", ..." else []) ++ (c!")" ++ a) ≠ c!", " ++ (y.cpp E ++ r) := by
        intro va a y r hy hr e
        cases va
        · simp at e
        · exact dots hy (List.append_cancel_left (as := c!", ") e).symm
      obtain ⟨h2, e⟩ := tails_read (f := Ty.cpp E) (sep := c!", ") (Ok := fun t => t.plain key = true) (St := fun _ a => Stop a) (l := l) (l' := l')
        (fun x hx y hy a b ha hb e => ty_read hE (pl x (by simp [hx])).1 hy (rd x (by simp [hx])) ha hb e)
        (fun x hx => (pl x (by simp [hx])).1) (fun x hx => (pl' x (by simp [hx])).1) (fun x _ r => Stop.cons (by decide))
        (fun _ _ => ve) (fun _ _ => ve) na na e
      refine ⟨by rw [h1, h2], ?_⟩
      cases va <;> cases va' <;> simp at e ⊢
      · exact e
      · exact e

end Undname.Spec.Cxx

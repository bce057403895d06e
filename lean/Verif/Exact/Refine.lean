/-
  The parser refines the grammar: every phrase is read as the tree it denotes.
-/
import Verif.Exact.SimOdd
import Verif.Exact.Counted
import Verif.Proof.FreeHead
import Verif.Proof.Refine
import Verif.Props.Safety

namespace Undname.Ex
open Spec (T Tbl Cat Gram GramN)

/-- What it means that a phrase is read correctly. -/
def Reads (E : Env) : Cat → Tbl → T → Text → Tbl → Nat → Prop
  | .ty => MTy E
  | .tyR => MTyR E
  | .ret => MRet E
  | .plist => MPlist E
  | .params v => MParams E v
  | .fty b => MFty E b
  | .uname => MUname E
  | .fid => MFid E
  | .tmpl => MTmpl E
  | .piece => MPiece E
  | .scopes => MScopes E
  | .qtn => fun tb t x tb' k => MQtn E tb t x tb' k ∧ (x ≠ [] ∧ x.head? ≠ some '@')
  | .targs => MTargs E
  | .targ m => MTarg E m
  | .targN m f => MTargN E m f
  | .sname => MSname E
  | .fenc => MFenc E
  | .decl => MDecl E
  | .sym => MSym E
  | .symEnd => MSymEnd E

theorem gram_reads {E : Env} {cat : Cat} {tb tb' : Tbl} {t : T} {x : Text} {k : Nat}
    (h : GramN E cat tb t x tb' k) : Reads E cat tb t x tb' k := by
  induction h with
  | prim k => exact rule_prim k
  | tag k _ ih => exact rule_tag k ih.1
  | ptr e h1 h2 _ ih => exact rule_ptr e h1 h2 ih
  | ptrFn h1 _ ih => exact rule_ptrFn h1 ih
  | ptrMember e h1 h2 _ _ ih1 ih2 => exact rule_ptrMember e h1 h2 ih1.1 ih2
  | ptrMemberFn h1 _ _ ih1 ih2 => exact rule_ptrMemberFn h1 ih1.1 ih2
  | array h1 h2 h3 _ ih => exact rule_array h1 h2 h3 ih
  | arrayQ h1 h2 h3 h4 _ ih => exact rule_arrayQ h1 h2 h3 h4 ih
  | fnType _ ih => exact rule_fnType ih
  | fnTypeThis _ ih => exact rule_fnTypeThis ih
  | custom _ ih => exact rule_custom ih
  | resPlain _ h ih => exact rule_resPlain ih h
  | resQual h _ ih => exact rule_resQual h ih
  | retNone => exact rule_retNone
  | retSome _ ih => exact rule_retSome ih
  | pNil => exact rule_pNil
  | pBack h1 h2 _ ih => exact rule_pBack h1 h2 ih
  | pLetter _ h _ ih1 ih2 => exact rule_pLetter ih1 h ih2
  | pType _ h _ ih1 ih2 => exact rule_pType ih1 h ih2
  | pVoid => exact rule_pVoid
  | pFixed _ h ih => exact rule_pFixed ih h
  | pVariadic _ h ih => exact rule_pVariadic ih h
  | fn cc ne _ _ ih1 ih2 => exact rule_fn cc ne ih1 ih2
  | fnThis e rf cc ne h _ _ ih1 ih2 => exact rule_fnThis e rf cc ne h ih1 ih2
  | uBack h1 h2 => exact rule_uBack h1 h2
  | uName h => exact rule_uName h
  | uTmpl _ h1 h2 ih => exact rule_uTmpl ih h1 h2
  | fName h => exact rule_fName h
  | fOp h => exact rule_fOp h
  | fOpUnder h => exact rule_fOpUnder h
  | fOpDunder h => exact rule_fOpDunder h
  | fLit h1 h2 => exact rule_fLit h1 h2
  | fCtor => exact rule_fCtor
  | fDtor => exact rule_fDtor
  | fConv => exact rule_fConv
  | tmpl _ _ ih1 ih2 => exact rule_tmpl ih1 ih2
  | sBack h1 h2 => exact rule_sBack h1 h2
  | sFull _ ih => exact rule_sFull ih
  | sTmpl _ ih => exact rule_sTmpl ih
  | scName _ ih => exact rule_scName ih
  | scAnon h => exact rule_scAnon h
  | scLocal h1 _ h2 ih => exact rule_scLocal h1 ih h2
  | scNil => exact rule_scNil
  | scCons _ _ ih1 ih2 => exact rule_scCons ih1 ih2
  | qtn _ _ ih1 ih2 =>
    refine ⟨rule_qtn ih1 ih2, ?_⟩
    obtain ⟨h1, h2⟩ := (show MUname E _ _ _ _ _ from ih1).head
    exact ⟨by simp [h1], head_append h1 h2 _⟩
  | taNil => exact rule_taNil
  | taPack h _ ih => exact rule_taPack h ih
  | taCons _ _ ih1 ih2 => exact rule_taCons ih1 ih2
  | taAuto _ _ _ ih1 ih2 ih3 => exact rule_taAuto ih1 ih2 ih3
  | aType _ ih => exact rule_aType ih
  | aTypeB _ ih => exact rule_aTypeB ih
  | aTypeC h _ ih => exact rule_aTypeC h ih
  | aName _ ih => exact rule_aName ih.1
  | aInt h => exact rule_aInt h
  | aNull h1 h2 h3 => exact rule_aNull h1 h2 h3
  | aSym h1 _ h2 h3 h4 ih => exact rule_aSym h1 ih h2 h3 h4
  | aRef _ ih => exact rule_aRef ih
  | aData h1 h2 => exact rule_aData h1 h2
  | fenc b h1 h2 _ ih => exact rule_fenc b h1 h2 ih
  | fencBare b => exact rule_fencBare b
  | var _ h1 _ h2 _ h3 h4 ih1 ih2 ih3 => exact rule_var ih1 h1 ih2 h2 ih3 h3 h4
  | varPtr e _ h1 _ h2 _ h4 ih1 ih2 ih3 => exact rule_varPtr e ih1 h1 ih2 h2 ih3 h4
  | varMemberPtr e _ h1 _ h2 _ h4 _ ih1 ih2 ih3 ih4 => exact rule_varMemberPtr e ih1 h1 ih2 h2 ih3 h4 ih4.1
  | func _ h _ _ ih1 ih2 ih3 => exact rule_func ih1 h ih2 ih3
  | structor _ _ h _ ih1 ih2 ih3 => exact rule_structor ih1 ih2 h ih3
  | conv _ _ _ ih1 ih2 ih3 => exact rule_conv ih1 ih2 ih3
  | convThunk _ _ _ ih1 ih2 ih3 => exact rule_convThunk ih1 ih2 ih3
  | sym h hf ih => exact rule_sym ih (free_symHead hf (gram_at h.gram))
  | table h1 _ h2 h3 ih => exact rule_table h1 ih h2 h3
  | tableFor h1 _ h2 h3 _ ih1 ih2 => exact rule_tableFor h1 ih1 h2 h3 ih2.1 ih2.2
  | vcall cc _ h ih => exact rule_vcall cc ih h
  | untyped h _ ih => exact rule_untyped h ih
  | baseDescr h1 h2 h3 h4 b1 b2 b3 b4 _ ih => exact rule_baseDescr h1 h2 h3 h4 b1 b2 b3 b4 ih
  | guardVar th vis _ h1 h2 ih => exact rule_guardVar th vis ih h1 h2
  | dynVar d k _ h _ ih1 ih2 => exact rule_dynVar d k ih1 h ih2
  | dynFn d _ h ih => exact rule_dynFn d ih h
  | guardEnd th vis _ ih => exact rule_guardEnd th vis ih
  | ptrRefMember e h1 h2 h3 _ ih => exact rule_ptrRefMember e h1 h2 h3 ih
  | customOdd h1 h2 => exact rule_customOdd h1 h2
  | fOpNone h => exact rule_fOpNone h
  | fOpNone2 h => exact rule_fOpNone2 h
  | tmplTmpl _ _ ih1 ih2 => exact rule_tmplTmpl ih1 ih2
  | scOdd h1 h2 h3 h4 h ih => exact rule_scOdd h1 h2 h3 (List.ne_nil_of_mem (gram_at h.gram)) h4 ih
  | scLocalHash h1 h2 h3 h4 h ih => exact rule_scLocalHash h1 h2 (gram_at h.gram) h3 h4 ih
  | qtnOdd h1 h2 _ ih => exact ⟨rule_qtnOdd h1 h2 ih, by simp⟩
  | taConsN _ h1 h ih1 ih2 => exact rule_taConsN ih1 (gram_at h.gram) h1 ih2
  | taAutoN _ _ h1 h ih1 ih2 ih3 => exact rule_taAutoN ih1 ih2 (gram_at h.gram) h1 ih3
  | nNull => exact rule_nNull
  | nHash h1 h2 => exact rule_nHash h1 h2
  | nHashRef h => exact rule_nHashRef h
  | aHash h1 h2 h3 h4 => exact rule_aHash h1 h2 h3 h4
  | aTypeAuto _ h ih => exact rule_aTypeAuto ih h
  | varStructor _ _ h1 h2 _ h3 h4 ih1 ih2 ih3 => exact rule_varStructor ih1 ih2 h1 h2 ih3 h3 h4
  | varStructorPtr e _ _ h1 h2 _ h4 ih1 ih2 ih3 => exact rule_varStructorPtr e ih1 ih2 h1 h2 ih3 h4
  | varStructorMemberPtr e _ _ h1 h2 _ h4 _ ih1 ih2 ih3 ih4 => exact rule_varStructorMemberPtr e ih1 ih2 h1 h2 ih3 h4 ih4.1
  | hashLocator h => exact rule_hashLocator h
  | narrow h1 h2 h3 h4 h5 => exact rule_narrow h1 h2 h3 h4 h5
  | wide h1 h2 h3 h4 h5 => exact rule_wide h1 h2 h3 h4 h5
  | typeinfo _ ih => exact rule_typeinfo ih
  | rttiType _ ih => exact rule_rttiType ih

end Undname.Ex

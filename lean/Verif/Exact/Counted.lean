/-
  The counted grammar and the grammar have the same phrases.
-/
import Verif.Spec.Nodes

namespace Undname.Spec

/-- Forgetting the count. -/
theorem GramN.gram {E : Env} {cat : Cat} {tb tb' : Tbl} {t : T} {x : Text} {k : Nat} (h : GramN E cat tb t x tb' k) :
    Gram E cat tb t x tb' := by
  induction h with
  | prim e0 => exact .prim e0
  | tag e0 _ ih0 => exact .tag e0 ih0
  | ptr e0 h0 h1 _ ih2 => exact .ptr e0 h0 h1 ih2
  | ptrRefMember e0 h0 h1 h2 _ ih3 => exact .ptrRefMember e0 h0 h1 h2 ih3
  | ptrFn h0 _ ih1 => exact .ptrFn h0 ih1
  | ptrMember e0 h0 h1 _ _ ih2 ih3 => exact .ptrMember e0 h0 h1 ih2 ih3
  | ptrMemberFn h0 _ _ ih1 ih2 => exact .ptrMemberFn h0 ih1 ih2
  | array h0 h1 h2 _ ih3 => exact .array h0 h1 h2 ih3
  | arrayQ h0 h1 h2 h3 _ ih4 => exact .arrayQ h0 h1 h2 h3 ih4
  | fnType _ ih0 => exact .fnType ih0
  | fnTypeThis _ ih0 => exact .fnTypeThis ih0
  | custom _ ih0 => exact .custom ih0
  | customOdd h0 h1 => exact .customOdd h0 h1
  | resPlain _ h1 ih0 => exact .resPlain ih0 h1
  | resQual h0 _ ih1 => exact .resQual h0 ih1
  | retNone => exact .retNone
  | retSome _ ih0 => exact .retSome ih0
  | pNil => exact .pNil
  | pBack h0 h1 _ ih2 => exact .pBack h0 h1 ih2
  | pLetter _ h1 _ ih0 ih2 => exact .pLetter ih0 h1 ih2
  | pType _ h1 _ ih0 ih2 => exact .pType ih0 h1 ih2
  | pVoid => exact .pVoid
  | pFixed _ h1 ih0 => exact .pFixed ih0 h1
  | pVariadic _ h1 ih0 => exact .pVariadic ih0 h1
  | fn e0 e1 _ _ ih0 ih1 => exact .fn e0 e1 ih0 ih1
  | fnThis e0 e1 e2 e3 h0 _ _ ih1 ih2 => exact .fnThis e0 e1 e2 e3 h0 ih1 ih2
  | uBack h0 h1 => exact .uBack h0 h1
  | uName h0 => exact .uName h0
  | uTmpl _ h1 h2 ih0 => exact .uTmpl ih0 h1 h2
  | fName h0 => exact .fName h0
  | fOp h0 => exact .fOp h0
  | fOpUnder h0 => exact .fOpUnder h0
  | fOpDunder h0 => exact .fOpDunder h0
  | fOpNone h0 => exact .fOpNone h0
  | fOpNone2 h0 => exact .fOpNone2 h0
  | fLit h0 h1 => exact .fLit h0 h1
  | fCtor => exact .fCtor
  | fDtor => exact .fDtor
  | fConv => exact .fConv
  | tmpl _ _ ih0 ih1 => exact .tmpl ih0 ih1
  | tmplTmpl _ _ ih0 ih1 => exact .tmplTmpl ih0 ih1
  | sBack h0 h1 => exact .sBack h0 h1
  | sFull _ ih0 => exact .sFull ih0
  | sTmpl _ ih0 => exact .sTmpl ih0
  | scName _ ih0 => exact .scName ih0
  | scAnon h0 => exact .scAnon h0
  | scLocal h0 _ h2 ih1 => exact .scLocal h0 ih1 h2
  | scNil => exact .scNil
  | scCons _ _ ih0 ih1 => exact .scCons ih0 ih1
  | scOdd h0 h1 h2 h3 _ ih4 => exact .scOdd h0 h1 h2 h3 ih4
  | scLocalHash h0 h1 h2 h3 _ ih4 => exact .scLocalHash h0 h1 h2 h3 ih4
  | qtnOdd h0 h1 _ ih2 => exact .qtnOdd h0 h1 ih2
  | qtn _ _ ih0 ih1 => exact .qtn ih0 ih1
  | taNil => exact .taNil
  | taPack h0 _ ih1 => exact .taPack h0 ih1
  | taCons _ _ ih0 ih1 => exact .taCons ih0 ih1
  | taAuto _ _ _ ih0 ih1 ih2 => exact .taAuto ih0 ih1 ih2
  | taConsN _ h1 _ ih0 ih2 => exact .taConsN ih0 h1 ih2
  | taAutoN _ _ h2 _ ih0 ih1 ih3 => exact .taAutoN ih0 ih1 h2 ih3
  | nNull => exact .nNull
  | nHash h0 h1 => exact .nHash h0 h1
  | nHashRef h0 => exact .nHashRef h0
  | aHash h0 h1 h2 h3 => exact .aHash h0 h1 h2 h3
  | aTypeAuto _ h1 ih0 => exact .aTypeAuto ih0 h1
  | aType _ ih0 => exact .aType ih0
  | aTypeB _ ih0 => exact .aTypeB ih0
  | aTypeC h0 _ ih1 => exact .aTypeC h0 ih1
  | aName _ ih0 => exact .aName ih0
  | aInt h0 => exact .aInt h0
  | aNull h0 h1 h2 => exact .aNull h0 h1 h2
  | aSym h0 _ h2 h3 h4 ih1 => exact .aSym h0 ih1 h2 h3 h4
  | aRef _ ih0 => exact .aRef ih0
  | aData h0 h1 => exact .aData h0 h1
  | fenc e0 h0 h1 _ ih2 => exact .fenc e0 h0 h1 ih2
  | fencBare e0 => exact .fencBare e0
  | var _ h1 _ h3 _ h5 h6 ih0 ih2 ih4 => exact .var ih0 h1 ih2 h3 ih4 h5 h6
  | varPtr e0 _ h1 _ h3 _ h5 ih0 ih2 ih4 => exact .varPtr e0 ih0 h1 ih2 h3 ih4 h5
  | varMemberPtr e0 _ h1 _ h3 _ h5 _ ih0 ih2 ih4 ih6 => exact .varMemberPtr e0 ih0 h1 ih2 h3 ih4 h5 ih6
  | varStructor _ _ h2 h3 _ h5 h6 ih0 ih1 ih4 => exact .varStructor ih0 ih1 h2 h3 ih4 h5 h6
  | varStructorPtr e0 _ _ h2 h3 _ h5 ih0 ih1 ih4 => exact .varStructorPtr e0 ih0 ih1 h2 h3 ih4 h5
  | varStructorMemberPtr e0 _ _ h2 h3 _ h5 _ ih0 ih1 ih4 ih6 => exact .varStructorMemberPtr e0 ih0 ih1 h2 h3 ih4 h5 ih6
  | func _ h1 _ _ ih0 ih2 ih3 => exact .func ih0 h1 ih2 ih3
  | structor _ _ h2 _ ih0 ih1 ih3 => exact .structor ih0 ih1 h2 ih3
  | conv _ _ _ ih0 ih1 ih2 => exact .conv ih0 ih1 ih2
  | convThunk _ _ _ ih0 ih1 ih2 => exact .convThunk ih0 ih1 ih2
  | sym _ h1 ih0 => exact .sym ih0 h1
  | hashLocator h0 => exact .hashLocator h0
  | narrow h0 h1 h2 h3 h4 => exact .narrow h0 h1 h2 h3 h4
  | wide h0 h1 h2 h3 h4 => exact .wide h0 h1 h2 h3 h4
  | table h0 _ h2 h3 ih1 => exact .table h0 ih1 h2 h3
  | tableFor h0 _ h2 h3 _ ih1 ih4 => exact .tableFor h0 ih1 h2 h3 ih4
  | vcall e0 _ h1 ih0 => exact .vcall e0 ih0 h1
  | untyped h0 _ ih1 => exact .untyped h0 ih1
  | baseDescr h0 h1 h2 h3 h4 h5 h6 h7 _ ih8 => exact .baseDescr h0 h1 h2 h3 h4 h5 h6 h7 ih8
  | guardVar e0 e1 _ h1 h2 ih0 => exact .guardVar e0 e1 ih0 h1 h2
  | dynVar e0 e1 _ h1 _ ih0 ih2 => exact .dynVar e0 e1 ih0 h1 ih2
  | dynFn e0 _ h1 ih0 => exact .dynFn e0 ih0 h1
  | guardEnd e0 e1 _ ih0 => exact .guardEnd e0 e1 ih0
  | typeinfo _ ih0 => exact .typeinfo ih0
  | rttiType _ ih0 => exact .rttiType ih0

/-- Every phrase has a count. -/
theorem Gram.count {E : Env} {cat : Cat} {tb tb' : Tbl} {t : T} {x : Text} (h : Gram E cat tb t x tb') :
    ∃ k, GramN E cat tb t x tb' k := by
  induction h with
  | prim e0 => exact ⟨_, .prim e0⟩
  | tag e0 _ ih0 => obtain ⟨_, g0⟩ := ih0; exact ⟨_, .tag e0 g0⟩
  | ptr e0 h0 h1 _ ih2 => obtain ⟨_, g2⟩ := ih2; exact ⟨_, .ptr e0 h0 h1 g2⟩
  | ptrRefMember e0 h0 h1 h2 _ ih3 => obtain ⟨_, g3⟩ := ih3; exact ⟨_, .ptrRefMember e0 h0 h1 h2 g3⟩
  | ptrFn h0 _ ih1 => obtain ⟨_, g1⟩ := ih1; exact ⟨_, .ptrFn h0 g1⟩
  | ptrMember e0 h0 h1 _ _ ih2 ih3 => obtain ⟨_, g2⟩ := ih2; obtain ⟨_, g3⟩ := ih3; exact ⟨_, .ptrMember e0 h0 h1 g2 g3⟩
  | ptrMemberFn h0 _ _ ih1 ih2 => obtain ⟨_, g1⟩ := ih1; obtain ⟨_, g2⟩ := ih2; exact ⟨_, .ptrMemberFn h0 g1 g2⟩
  | array h0 h1 h2 _ ih3 => obtain ⟨_, g3⟩ := ih3; exact ⟨_, .array h0 h1 h2 g3⟩
  | arrayQ h0 h1 h2 h3 _ ih4 => obtain ⟨_, g4⟩ := ih4; exact ⟨_, .arrayQ h0 h1 h2 h3 g4⟩
  | fnType _ ih0 => obtain ⟨_, g0⟩ := ih0; exact ⟨_, .fnType g0⟩
  | fnTypeThis _ ih0 => obtain ⟨_, g0⟩ := ih0; exact ⟨_, .fnTypeThis g0⟩
  | custom _ ih0 => obtain ⟨_, g0⟩ := ih0; exact ⟨_, .custom g0⟩
  | customOdd h0 h1 => exact ⟨_, .customOdd h0 h1⟩
  | resPlain _ h1 ih0 => obtain ⟨_, g0⟩ := ih0; exact ⟨_, .resPlain g0 h1⟩
  | resQual h0 _ ih1 => obtain ⟨_, g1⟩ := ih1; exact ⟨_, .resQual h0 g1⟩
  | retNone => exact ⟨_, .retNone⟩
  | retSome _ ih0 => obtain ⟨_, g0⟩ := ih0; exact ⟨_, .retSome g0⟩
  | pNil => exact ⟨_, .pNil⟩
  | pBack h0 h1 _ ih2 => obtain ⟨_, g2⟩ := ih2; exact ⟨_, .pBack h0 h1 g2⟩
  | pLetter _ h1 _ ih0 ih2 => obtain ⟨_, g0⟩ := ih0; obtain ⟨_, g2⟩ := ih2; exact ⟨_, .pLetter g0 h1 g2⟩
  | pType _ h1 _ ih0 ih2 => obtain ⟨_, g0⟩ := ih0; obtain ⟨_, g2⟩ := ih2; exact ⟨_, .pType g0 h1 g2⟩
  | pVoid => exact ⟨_, .pVoid⟩
  | pFixed _ h1 ih0 => obtain ⟨_, g0⟩ := ih0; exact ⟨_, .pFixed g0 h1⟩
  | pVariadic _ h1 ih0 => obtain ⟨_, g0⟩ := ih0; exact ⟨_, .pVariadic g0 h1⟩
  | fn e0 e1 _ _ ih0 ih1 => obtain ⟨_, g0⟩ := ih0; obtain ⟨_, g1⟩ := ih1; exact ⟨_, .fn e0 e1 g0 g1⟩
  | fnThis e0 e1 e2 e3 h0 _ _ ih1 ih2 => obtain ⟨_, g1⟩ := ih1; obtain ⟨_, g2⟩ := ih2; exact ⟨_, .fnThis e0 e1 e2 e3 h0 g1 g2⟩
  | uBack h0 h1 => exact ⟨_, .uBack h0 h1⟩
  | uName h0 => exact ⟨_, .uName h0⟩
  | uTmpl _ h1 h2 ih0 => obtain ⟨_, g0⟩ := ih0; exact ⟨_, .uTmpl g0 h1 h2⟩
  | fName h0 => exact ⟨_, .fName h0⟩
  | fOp h0 => exact ⟨_, .fOp h0⟩
  | fOpUnder h0 => exact ⟨_, .fOpUnder h0⟩
  | fOpDunder h0 => exact ⟨_, .fOpDunder h0⟩
  | fOpNone h0 => exact ⟨_, .fOpNone h0⟩
  | fOpNone2 h0 => exact ⟨_, .fOpNone2 h0⟩
  | fLit h0 h1 => exact ⟨_, .fLit h0 h1⟩
  | fCtor => exact ⟨_, .fCtor⟩
  | fDtor => exact ⟨_, .fDtor⟩
  | fConv => exact ⟨_, .fConv⟩
  | tmpl _ _ ih0 ih1 => obtain ⟨_, g0⟩ := ih0; obtain ⟨_, g1⟩ := ih1; exact ⟨_, .tmpl g0 g1⟩
  | tmplTmpl _ _ ih0 ih1 => obtain ⟨_, g0⟩ := ih0; obtain ⟨_, g1⟩ := ih1; exact ⟨_, .tmplTmpl g0 g1⟩
  | sBack h0 h1 => exact ⟨_, .sBack h0 h1⟩
  | sFull _ ih0 => obtain ⟨_, g0⟩ := ih0; exact ⟨_, .sFull g0⟩
  | sTmpl _ ih0 => obtain ⟨_, g0⟩ := ih0; exact ⟨_, .sTmpl g0⟩
  | scName _ ih0 => obtain ⟨_, g0⟩ := ih0; exact ⟨_, .scName g0⟩
  | scAnon h0 => exact ⟨_, .scAnon h0⟩
  | scLocal h0 _ h2 ih1 => obtain ⟨_, g1⟩ := ih1; exact ⟨_, .scLocal h0 g1 h2⟩
  | scNil => exact ⟨_, .scNil⟩
  | scCons _ _ ih0 ih1 => obtain ⟨_, g0⟩ := ih0; obtain ⟨_, g1⟩ := ih1; exact ⟨_, .scCons g0 g1⟩
  | scOdd h0 h1 h2 h3 _ ih4 => obtain ⟨_, g4⟩ := ih4; exact ⟨_, .scOdd h0 h1 h2 h3 g4⟩
  | scLocalHash h0 h1 h2 h3 _ ih4 => obtain ⟨_, g4⟩ := ih4; exact ⟨_, .scLocalHash h0 h1 h2 h3 g4⟩
  | qtnOdd h0 h1 _ ih2 => obtain ⟨_, g2⟩ := ih2; exact ⟨_, .qtnOdd h0 h1 g2⟩
  | qtn _ _ ih0 ih1 => obtain ⟨_, g0⟩ := ih0; obtain ⟨_, g1⟩ := ih1; exact ⟨_, .qtn g0 g1⟩
  | taNil => exact ⟨_, .taNil⟩
  | taPack h0 _ ih1 => obtain ⟨_, g1⟩ := ih1; exact ⟨_, .taPack h0 g1⟩
  | taCons _ _ ih0 ih1 => obtain ⟨_, g0⟩ := ih0; obtain ⟨_, g1⟩ := ih1; exact ⟨_, .taCons g0 g1⟩
  | taAuto _ _ _ ih0 ih1 ih2 => obtain ⟨_, g0⟩ := ih0; obtain ⟨_, g1⟩ := ih1; obtain ⟨_, g2⟩ := ih2; exact ⟨_, .taAuto g0 g1 g2⟩
  | taConsN _ h1 _ ih0 ih2 => obtain ⟨_, g0⟩ := ih0; obtain ⟨_, g2⟩ := ih2; exact ⟨_, .taConsN g0 h1 g2⟩
  | taAutoN _ _ h2 _ ih0 ih1 ih3 => obtain ⟨_, g0⟩ := ih0; obtain ⟨_, g1⟩ := ih1; obtain ⟨_, g3⟩ := ih3; exact ⟨_, .taAutoN g0 g1 h2 g3⟩
  | nNull => exact ⟨_, .nNull⟩
  | nHash h0 h1 => exact ⟨_, .nHash h0 h1⟩
  | nHashRef h0 => exact ⟨_, .nHashRef h0⟩
  | aHash h0 h1 h2 h3 => exact ⟨_, .aHash h0 h1 h2 h3⟩
  | aTypeAuto _ h1 ih0 => obtain ⟨_, g0⟩ := ih0; exact ⟨_, .aTypeAuto g0 h1⟩
  | aType _ ih0 => obtain ⟨_, g0⟩ := ih0; exact ⟨_, .aType g0⟩
  | aTypeB _ ih0 => obtain ⟨_, g0⟩ := ih0; exact ⟨_, .aTypeB g0⟩
  | aTypeC h0 _ ih1 => obtain ⟨_, g1⟩ := ih1; exact ⟨_, .aTypeC h0 g1⟩
  | aName _ ih0 => obtain ⟨_, g0⟩ := ih0; exact ⟨_, .aName g0⟩
  | aInt h0 => exact ⟨_, .aInt h0⟩
  | aNull h0 h1 h2 => exact ⟨_, .aNull h0 h1 h2⟩
  | aSym h0 _ h2 h3 h4 ih1 => obtain ⟨_, g1⟩ := ih1; exact ⟨_, .aSym h0 g1 h2 h3 h4⟩
  | aRef _ ih0 => obtain ⟨_, g0⟩ := ih0; exact ⟨_, .aRef g0⟩
  | aData h0 h1 => exact ⟨_, .aData h0 h1⟩
  | fenc e0 h0 h1 _ ih2 => obtain ⟨_, g2⟩ := ih2; exact ⟨_, .fenc e0 h0 h1 g2⟩
  | fencBare e0 => exact ⟨_, .fencBare e0⟩
  | var _ h1 _ h3 _ h5 h6 ih0 ih2 ih4 => obtain ⟨_, g0⟩ := ih0; obtain ⟨_, g2⟩ := ih2; obtain ⟨_, g4⟩ := ih4; exact ⟨_, .var g0 h1 g2 h3 g4 h5 h6⟩
  | varPtr e0 _ h1 _ h3 _ h5 ih0 ih2 ih4 => obtain ⟨_, g0⟩ := ih0; obtain ⟨_, g2⟩ := ih2; obtain ⟨_, g4⟩ := ih4; exact ⟨_, .varPtr e0 g0 h1 g2 h3 g4 h5⟩
  | varMemberPtr e0 _ h1 _ h3 _ h5 _ ih0 ih2 ih4 ih6 => obtain ⟨_, g0⟩ := ih0; obtain ⟨_, g2⟩ := ih2; obtain ⟨_, g4⟩ := ih4; obtain ⟨_, g6⟩ := ih6; exact ⟨_, .varMemberPtr e0 g0 h1 g2 h3 g4 h5 g6⟩
  | varStructor _ _ h2 h3 _ h5 h6 ih0 ih1 ih4 => obtain ⟨_, g0⟩ := ih0; obtain ⟨_, g1⟩ := ih1; obtain ⟨_, g4⟩ := ih4; exact ⟨_, .varStructor g0 g1 h2 h3 g4 h5 h6⟩
  | varStructorPtr e0 _ _ h2 h3 _ h5 ih0 ih1 ih4 => obtain ⟨_, g0⟩ := ih0; obtain ⟨_, g1⟩ := ih1; obtain ⟨_, g4⟩ := ih4; exact ⟨_, .varStructorPtr e0 g0 g1 h2 h3 g4 h5⟩
  | varStructorMemberPtr e0 _ _ h2 h3 _ h5 _ ih0 ih1 ih4 ih6 => obtain ⟨_, g0⟩ := ih0; obtain ⟨_, g1⟩ := ih1; obtain ⟨_, g4⟩ := ih4; obtain ⟨_, g6⟩ := ih6; exact ⟨_, .varStructorMemberPtr e0 g0 g1 h2 h3 g4 h5 g6⟩
  | func _ h1 _ _ ih0 ih2 ih3 => obtain ⟨_, g0⟩ := ih0; obtain ⟨_, g2⟩ := ih2; obtain ⟨_, g3⟩ := ih3; exact ⟨_, .func g0 h1 g2 g3⟩
  | structor _ _ h2 _ ih0 ih1 ih3 => obtain ⟨_, g0⟩ := ih0; obtain ⟨_, g1⟩ := ih1; obtain ⟨_, g3⟩ := ih3; exact ⟨_, .structor g0 g1 h2 g3⟩
  | conv _ _ _ ih0 ih1 ih2 => obtain ⟨_, g0⟩ := ih0; obtain ⟨_, g1⟩ := ih1; obtain ⟨_, g2⟩ := ih2; exact ⟨_, .conv g0 g1 g2⟩
  | convThunk _ _ _ ih0 ih1 ih2 => obtain ⟨_, g0⟩ := ih0; obtain ⟨_, g1⟩ := ih1; obtain ⟨_, g2⟩ := ih2; exact ⟨_, .convThunk g0 g1 g2⟩
  | sym _ h1 ih0 => obtain ⟨_, g0⟩ := ih0; exact ⟨_, .sym g0 h1⟩
  | hashLocator h0 => exact ⟨_, .hashLocator h0⟩
  | narrow h0 h1 h2 h3 h4 => exact ⟨_, .narrow h0 h1 h2 h3 h4⟩
  | wide h0 h1 h2 h3 h4 => exact ⟨_, .wide h0 h1 h2 h3 h4⟩
  | table h0 _ h2 h3 ih1 => obtain ⟨_, g1⟩ := ih1; exact ⟨_, .table h0 g1 h2 h3⟩
  | tableFor h0 _ h2 h3 _ ih1 ih4 => obtain ⟨_, g1⟩ := ih1; obtain ⟨_, g4⟩ := ih4; exact ⟨_, .tableFor h0 g1 h2 h3 g4⟩
  | vcall e0 _ h1 ih0 => obtain ⟨_, g0⟩ := ih0; exact ⟨_, .vcall e0 g0 h1⟩
  | untyped h0 _ ih1 => obtain ⟨_, g1⟩ := ih1; exact ⟨_, .untyped h0 g1⟩
  | baseDescr h0 h1 h2 h3 h4 h5 h6 h7 _ ih8 => obtain ⟨_, g8⟩ := ih8; exact ⟨_, .baseDescr h0 h1 h2 h3 h4 h5 h6 h7 g8⟩
  | guardVar e0 e1 _ h1 h2 ih0 => obtain ⟨_, g0⟩ := ih0; exact ⟨_, .guardVar e0 e1 g0 h1 h2⟩
  | dynVar e0 e1 _ h1 _ ih0 ih2 => obtain ⟨_, g0⟩ := ih0; obtain ⟨_, g2⟩ := ih2; exact ⟨_, .dynVar e0 e1 g0 h1 g2⟩
  | dynFn e0 _ h1 ih0 => obtain ⟨_, g0⟩ := ih0; exact ⟨_, .dynFn e0 g0 h1⟩
  | guardEnd e0 e1 _ ih0 => obtain ⟨_, g0⟩ := ih0; exact ⟨_, .guardEnd e0 e1 g0⟩
  | typeinfo _ ih0 => obtain ⟨_, g0⟩ := ih0; exact ⟨_, .typeinfo g0⟩
  | rttiType _ ih0 => obtain ⟨_, g0⟩ := ih0; exact ⟨_, .rttiType g0⟩

theorem DenotesN.denotes {E : Env} {m : Text} {t : T} {n : Nat} (h : DenotesN E m t n) : Denotes E m t := by
  rcases h with ⟨x, rest, tb', e, h⟩ | ⟨tb', h⟩ | ⟨u, rest, e, h1, h2, h3, _⟩
  · exact .inl ⟨x, rest, tb', e, h.gram⟩
  · exact .inr (.inl ⟨tb', h.gram⟩)
  · exact .inr (.inr ⟨u, rest, e, h1, h2, h3⟩)

theorem Denotes.count {E : Env} {m : Text} {t : T} (h : Denotes E m t) : ∃ n, DenotesN E m t n := by
  rcases h with ⟨x, rest, tb', e, h⟩ | ⟨tb', h⟩ | ⟨u, rest, e, h1, h2, h3⟩
  · obtain ⟨n, h⟩ := h.count
    exact ⟨n, .inl ⟨x, rest, tb', e, h⟩⟩
  · obtain ⟨n, h⟩ := h.count
    exact ⟨n, .inr (.inl ⟨tb', h⟩)⟩
  · exact ⟨4, .inr (.inr ⟨u, rest, e, h1, h2, h3, rfl⟩)⟩

end Undname.Spec

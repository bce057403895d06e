/-
  Specification: how many nodes a phrase costs. A name may have at most 2048 nodes.

  `GramN E cat tb t x tb' k` has the rules of the grammar of `Spec/Grammar.lean`, with the number `k` of nodes that are
  allocated for the phrase as a last argument. The rules are otherwise the same: `GramN.gram` and `Gram.count`
  (in `Exact/Refine.lean`) prove that.
-/
import Verif.Spec.Denotes

namespace Undname.Spec

/-- Memorizing a name costs a node if the name is new and there is room for it. -/
def Tbl.noteCost (tb : Tbl) (s : Text) : Nat := if tb.names.length < 10 ∧ s ∉ tb.names then 1 else 0

open Cat in
/-- The grammar with the number of nodes. -/
inductive GramN (E : Env) : Cat → Tbl → T → Text → Tbl → Nat → Prop where
  -- types
  | prim {tb} (k : PrimitiveKind) : GramN E ty tb (.prim {} k) (primCode k) tb 1
  | tag {tb n x tb' k1} (k : TagKind) : GramN E qtn tb n x tb' k1 → GramN E ty tb (.tag {} k n) (tagCode k ++ x) tb' (k1 + 1)
  | ptr {tb t x tb' code cv a ch q k1} (e : Ext) : (code, cv, a) ∈ refCodes → (ch, q) ∈ cvCodes →
      GramN E ty tb t x tb' k1 →
      GramN E ty tb (.ptr (cv.or e.cv) a .nil (t.addQ q)) (code ++ e.code ++ ch :: x) tb' (k1 + 1)
  | ptrRefMember {tb t x tb' code cv a ch q k1} (e : Ext) : (code, cv, a) ∈ refCodes → a ≠ .Pointer →
      (ch, q) ∈ memberCvCodes → GramN E ty tb t x tb' k1 →
      GramN E ty tb (.ptr (cv.or e.cv) a .nil (t.addQ q)) (code ++ e.code ++ ch :: x) tb' (k1 + 1)
  | ptrFn {tb t x tb' code cv a k1} : (code, cv, a) ∈ refCodes → GramN E (fty false) tb t x tb' k1 →
      GramN E ty tb (.ptr cv a .nil t) (code ++ '6' :: x) tb' (k1 + 1)
  | ptrMember {tb n x tb1 t y tb' code cv ch q k1 k2} (e : Ext) : (code, cv) ∈ ptrCodes → (ch, q) ∈ memberCvCodes →
      GramN E qtn tb n x tb1 k1 → GramN E ty tb1 t y tb' k2 →
      GramN E ty tb (.ptr (cv.or e.cv) .Pointer n.one (t.setQ q)) (code ++ e.code ++ ch :: x ++ y) tb' (k1 + k2 + 1)
  | ptrMemberFn {tb n x tb1 t y tb' code cv k1 k2} : (code, cv) ∈ ptrCodes → GramN E qtn tb n x tb1 k1 →
      GramN E (fty true) tb1 t y tb' k2 →
      GramN E ty tb (.ptr cv .Pointer n.one t) (code ++ '8' :: x ++ y) tb' (k1 + k2 + 1)
  | array {tb t z tb' x y dims k1} : EncNat x dims.length → dims ≠ [] → EncDims y dims →
      GramN E ty tb t z tb' k1 → GramN E ty tb (.array {} dims t) ('Y' :: x ++ y ++ z) tb' (k1 + dims.length + 2)
  | arrayQ {tb t z tb' x y dims ch q k1} : EncNat x dims.length → dims ≠ [] → EncDims y dims →
      (ch, q) ∈ cvCodes → GramN E ty tb t z tb' k1 →
      GramN E ty tb (.array q dims t) ('Y' :: x ++ y ++ c!"$$C" ++ ch :: z) tb' (k1 + dims.length + 2)
  | fnType {tb t x tb' k1} : GramN E (fty false) tb t x tb' k1 → GramN E ty tb t (c!"$$A6" ++ x) tb' k1
  | fnTypeThis {tb t x tb' k1} : GramN E (fty true) tb t x tb' k1 → GramN E ty tb t (c!"$$A8@@" ++ x) tb' k1
  | custom {tb i x tb' k1} : GramN E uname tb i x tb' k1 → GramN E ty tb (.custom i) ('?' :: x ++ c!"@") tb' (k1 + 1)
  | customOdd {tb u} : '@' ∉ u → u.head? ≠ some '$' →
      GramN E ty tb (.custom (.named ('?' :: u) .nil)) (c!"??" ++ u ++ c!"@@") (tb.note ('?' :: u)) (tb.noteCost ('?' :: u) + 1 + 1)
  | resPlain {tb t x tb' k1} : GramN E ty tb t x tb' k1 → x.head? ≠ some '?' → GramN E tyR tb t x tb' k1
  | resQual {tb t x tb' ch q k1} : (ch, q) ∈ cvCodes ++ memberCvCodes → GramN E ty tb t x tb' k1 →
      GramN E tyR tb (t.addQ q) ('?' :: ch :: x) tb' k1
  -- function types
  | retNone {tb} : GramN E ret tb .nil c!"@" tb 0
  | retSome {tb t x tb' k1} : GramN E tyR tb t x tb' k1 → GramN E ret tb t.one x tb' k1
  | pNil {tb} : GramN E plist tb .nil [] tb 0
  | pBack {tb ts x tb' i t k1} : i < 10 → tb.params[i]? = some t → GramN E plist tb ts x tb' k1 →
      GramN E plist tb (.cons t ts) (digit i ++ x) tb' k1
  | pLetter {tb t x tb1 ts y tb' k1 k2} : GramN E ty tb t x tb1 k1 → x.length = 1 → GramN E plist tb1 ts y tb' k2 →
      GramN E plist tb (.cons t ts) (x ++ y) tb' (k1 + k2)
  | pType {tb t x tb1 ts y tb' k1 k2} : GramN E ty tb t x tb1 k1 → x.length ≠ 1 →
      GramN E plist (tb1.noteParam t) ts y tb' k2 → GramN E plist tb (.cons t ts) (x ++ y) tb' (k1 + k2)
  | pVoid {tb} : GramN E (params false) tb .nil c!"X" tb 0
  | pFixed {tb ts x tb' k1} : GramN E plist tb ts x tb' k1 → x.head? ≠ some 'X' →
      GramN E (params false) tb (T.one (.arr ts)) (x ++ c!"@") tb' (k1 + 1)
  | pVariadic {tb ts x tb' k1} : GramN E plist tb ts x tb' k1 → x.head? ≠ some 'X' →
      GramN E (params true) tb (T.one (.arr ts)) (x ++ c!"Z") tb' (k1 + 1)
  | fn {tb r x tb1 ps y tb' v k1 k2} (cc : Char) (noexc : Bool) : GramN E ret tb r x tb1 k1 →
      GramN E (params v) tb1 ps y tb' k2 →
      GramN E (fty false) tb (.sig { conv := convOf cc, variadic := v, isNoexcept := noexc } r ps)
        (cc :: x ++ y ++ throwCode noexc) tb' (k1 + k2 + 1)
  | fnThis {tb r x tb1 ps y tb' v ch q k1 k2} (e : Ext) (rf : Option FunctionRefQualifier) (cc : Char) (noexc : Bool) :
      (ch, q) ∈ cvCodes ++ memberCvCodes → GramN E ret tb r x tb1 k1 → GramN E (params v) tb1 ps y tb' k2 →
      GramN E (fty true) tb
        (.sig { cv := e.cv.or q, conv := convOf cc, ref := rf, variadic := v, isNoexcept := noexc } r ps)
        (e.code ++ refCode rf ++ ch :: cc :: x ++ y ++ throwCode noexc) tb' (k1 + k2 + 1)
  -- names
  | uBack {tb i s} : i < 10 → tb.names[i]? = some s → GramN E uname tb (.named s .nil) (digit i) tb 0
  | uName {tb s} : Name s → GramN E uname tb (.named s .nil) (s ++ c!"@") (tb.note s) (tb.noteCost s + 1)
  | uTmpl {tb i x tb' k1} : GramN E tmpl tb i x tb' k1 → i.isPlain = true → Fits (i.text E) →
      GramN E uname tb i x (tb'.note (i.text E)) (k1 + tb'.noteCost (i.text E))
  | fName {tb s} : Name s → GramN E fid tb (.named s .nil) (s ++ c!"@") (tb.note s) (tb.noteCost s + 1)
  | fOp {tb c k} : (c, k) ∈ basicOps → GramN E fid tb (.op (some k) .nil) ['?', c] tb 1
  | fOpUnder {tb c k} : (c, k) ∈ underOps → GramN E fid tb (.op (some k) .nil) ['?', '_', c] tb 1
  | fOpDunder {tb c k} : (c, k) ∈ dunderOps → GramN E fid tb (.op (some k) .nil) ['?', '_', '_', c] tb 1
  | fOpNone {tb c} : c ∈ underNone → GramN E fid tb (.op none .nil) ['?', '_', c] tb 1
  | fOpNone2 {tb c} : c ∈ dunderNone → GramN E fid tb (.op none .nil) ['?', '_', '_', c] tb 1
  | fLit {tb s} : s ≠ [] → '@' ∉ s → GramN E fid tb (.lit s .nil) (c!"?__K" ++ s ++ c!"@") tb 1
  | fCtor {tb} : GramN E fid tb (.structor false .nil .nil) c!"?0" tb 1
  | fDtor {tb} : GramN E fid tb (.structor true .nil .nil) c!"?1" tb 1
  | fConv {tb} : GramN E fid tb (.conv .nil .nil) c!"?B" tb 1
  | tmpl {tb i x tb1 as y tb2 k1 k2} : GramN E fid {} i x tb1 k1 → GramN E targs tb1 as y tb2 k2 →
      GramN E tmpl tb (i.withArgs as) (c!"?$" ++ x ++ y) tb (k1 + k2 + 1)
  | tmplTmpl {tb i x tb1 as y tb2 k1 k2} : GramN E tmpl {} i x tb1 k1 → GramN E targs tb1 as y tb2 k2 →
      GramN E tmpl tb (i.withArgs as) (c!"?$" ++ x ++ y) tb (k1 + k2 + 1)
  | sBack {tb i s} : i < 10 → tb.names[i]? = some s → GramN E sname tb (.named s .nil) (digit i) tb 0
  | sFull {tb i x tb' k1} : GramN E fid tb i x tb' k1 → GramN E sname tb i x tb' k1
  | sTmpl {tb i x tb' k1} : GramN E tmpl tb i x tb' k1 → GramN E sname tb i x tb' k1
  -- scopes
  | scName {tb i x tb' k1} : GramN E uname tb i x tb' k1 → GramN E piece tb i x tb' k1
  | scAnon {tb key} : '@' ∉ key →
      GramN E piece tb (.named c!"`anonymous namespace'" .nil) (c!"?A" ++ key ++ c!"@") (tb.note key) (tb.noteCost key + 1)
  | scLocal {tb s x tb' y n k1} : EncScope y n → GramN E sym tb s x tb' k1 → Fits (localName E s n) →
      GramN E piece tb (.named (localName E s n) .nil) ('?' :: y ++ '?' :: x) tb' (k1 + 1)
  | scNil {tb} : GramN E scopes tb .nil c!"@" tb 2
  | scCons {tb p x tb1 ps y tb' k1 k2} : GramN E piece tb p x tb1 k1 → GramN E scopes tb1 ps y tb' k2 →
      GramN E scopes tb (ps.snoc p) (x ++ y) tb' (k1 + k2)
  | scOdd {tb u ps y tb' k1} : '@' ∉ u → u.head? ≠ some '$' → u.head? ≠ some 'A' →
      (∀ z n v, EncScope z n → u ++ '@' :: y ≠ z ++ '?' :: v) → GramN E scopes (tb.note ('?' :: u)) ps y tb' k1 →
      GramN E scopes tb (ps.snoc (.named ('?' :: u) .nil)) ('?' :: u ++ '@' :: y) tb' (tb.noteCost ('?' :: u) + 1 + k1)
  | scLocalHash {tb u z n ps y tb' k1} : EncScope z n → '@' ∉ u → ¬ locator <+: y →
      Fits (localName E (hashT (hashed u)) n) → GramN E scopes tb ps y tb' k1 →
      GramN E scopes tb (ps.snoc (.named (localName E (hashT (hashed u)) n) .nil)) ('?' :: z ++ '?' :: hashed u ++ y) tb' (4 + 1 + k1)
  | qtnOdd {tb u ps y tb' k1} : '@' ∉ u → u.head? ≠ some '$' → GramN E scopes (tb.note ('?' :: u)) ps y tb' k1 →
      GramN E qtn tb (.qname (ps.snoc (.named ('?' :: u) .nil))) ('?' :: u ++ '@' :: y) tb' (tb.noteCost ('?' :: u) + 1 + k1)
  | qtn {tb i x tb1 ps y tb' k1 k2} : GramN E uname tb i x tb1 k1 → GramN E scopes tb1 ps y tb' k2 →
      GramN E qtn tb (.qname (ps.snoc i)) (x ++ y) tb' (k1 + k2)
  -- template arguments
  | taNil {tb} : GramN E targs tb .nil c!"@" tb 0
  | taPack {tb as x tb' p k1} : p ∈ [c!"$S", c!"$$V", c!"$$$V", c!"$$Z"] → GramN E targs tb as x tb' k1 →
      GramN E targs tb as (p ++ x) tb' k1
  | taCons {tb a x tb1 as y tb' k1 k2} : GramN E (targ false) tb a x tb1 k1 → GramN E targs tb1 as y tb' k2 →
      GramN E targs tb (.cons a as) (x ++ y) tb' (k1 + k2)
  | taAuto {tb t x tb1 a y tb2 as z tb' k1 k2 k3} : GramN E ty tb t x tb1 k1 → GramN E (targ true) tb1 a y tb2 k2 →
      GramN E targs tb2 as z tb' k3 → GramN E targs tb (.cons a as) (c!"$M" ++ x ++ y ++ z) tb' (k1 + k2 + k3)
  | taConsN {tb a x tb1 as y tb' f k1 k2} : GramN E (targN false f) tb a x tb1 k1 → f.ok y → GramN E targs tb1 as y tb' k2 →
      GramN E targs tb (.cons a as) (x ++ y) tb' (k1 + k2)
  | taAutoN {tb t x tb1 a y tb2 as z tb' f k1 k2 k3} : GramN E ty tb t x tb1 k1 → GramN E (targN true f) tb1 a y tb2 k2 → f.ok z →
      GramN E targs tb2 as z tb' k3 → GramN E targs tb (.cons a as) (c!"$M" ++ x ++ y ++ z) tb' (k1 + k2 + k3)
  | nNull {tb m} : GramN E (targN m .noQ) tb (.addr true .nil []) ((if m then [] else c!"$") ++ c!"1") tb 1
  | nHash {tb m u} : '@' ∉ u → Fits ((T.named (hashed u) .nil).text E) →
      GramN E (targN m .noLocator) tb (.addr true (hashT (hashed u)).one []) ((if m then [] else c!"$") ++ '1' :: hashed u)
        (tb.note ((T.named (hashed u) .nil).text E)) (4 + tb.noteCost ((T.named (hashed u) .nil).text E) + 1)
  | nHashRef {tb m u} : '@' ∉ u →
      GramN E (targN m .noLocator) tb (.addr false (hashT (hashed u)).one []) (c!"$E" ++ hashed u) tb (4 + 1)
  | aHash {tb m u x offs ch} : (ch, offs.length) ∈ [('H', 1), ('I', 2), ('J', 3)] → '@' ∉ u →
      Fits ((T.named (hashed u) .nil).text E) → EncInts x offs →
      GramN E (targ m) tb (.addr true (hashT (hashed u)).one offs) ((if m then [] else c!"$") ++ ch :: hashed u ++ x)
        (tb.note ((T.named (hashed u) .nil).text E)) (4 + tb.noteCost ((T.named (hashed u) .nil).text E) + 1)
  | aTypeAuto {tb t x tb' k1} : GramN E ty tb t x tb' k1 → (∀ c ∈ x.head?, c ∉ c!"HIJFG") → GramN E (targ true) tb t x tb' k1
  | aType {tb t x tb' k1} : GramN E ty tb t x tb' k1 → GramN E (targ false) tb t x tb' k1
  | aTypeB {tb t x tb' m k1} : GramN E ty tb t x tb' k1 → GramN E (targ m) tb t (c!"$$B" ++ x) tb' k1
  | aTypeC {tb t x tb' m ch q k1} : (ch, q) ∈ cvCodes ++ memberCvCodes → GramN E ty tb t x tb' k1 →
      GramN E (targ m) tb (t.addQ q) (c!"$$C" ++ ch :: x) tb' k1
  | aName {tb n x tb' m k1} : GramN E qtn tb n x tb' k1 → GramN E (targ m) tb n (c!"$$Y" ++ x) tb' k1
  | aInt {tb x v neg m} : EncInt x v neg → GramN E (targ m) tb (.int v neg) ((if m then [] else c!"$") ++ '0' :: x) tb 1
  | aNull {tb x offs m ch} : (ch, offs.length) ∈ [('H', 1), ('I', 2), ('J', 3)] → EncInts x offs →
      x.head? ≠ some '?' →
      GramN E (targ m) tb (.addr true .nil offs) ((if m then [] else c!"$") ++ ch :: x) tb 1
  | aSym {tb s x tb' i y offs m ch k1} : (ch, offs.length) ∈ [('1', 0), ('H', 1), ('I', 2), ('J', 3)] →
      GramN E sym tb s x tb' k1 → s.ident = some i → Fits (i.text E) → EncInts y offs →
      GramN E (targ m) tb (.addr true s.one offs) ((if m then [] else c!"$") ++ ch :: x ++ y) (tb'.note (i.text E)) (k1 + tb'.noteCost (i.text E) + 1)
  | aRef {tb s x tb' m k1} : GramN E sym tb s x tb' k1 →
      GramN E (targ m) tb (.addr false s.one []) (c!"$E" ++ x) tb' (k1 + 1)
  | aData {tb x offs m ch} : (ch, offs.length) ∈ [('F', 2), ('G', 3)] → EncInts x offs →
      GramN E (targ m) tb (.addr false .nil offs) ((if m then [] else c!"$") ++ ch :: x) tb 1
  -- the types of functions
  | fenc {tb f r ps y tb' code k ak x adj k1} (extC : Bool) : (code, k, ak) ∈ classCodes → EncAdjust ak x adj →
      GramN E (fty k.hasThis) tb (.sig f r ps) y tb' k1 →
      GramN E fenc tb
        (if ak = .none then .sig { f with kind := { k with externC := extC } } r ps
         else .thunk { f with kind := { k with externC := extC } } adj r ps)
        ((if extC then c!"$$J0" else []) ++ code ++ x ++ y) tb' (k1 + if ak = .none then 1 else 2)
  | fencBare {tb} (extC : Bool) :
      GramN E fenc tb (.sig { kind := { externC := true, bare := true } } .nil .nil)
        ((if extC then c!"$$J0" else []) ++ c!"9") tb 2
  -- symbols
  | var {tb i x tb1 ps y tb2 t z tb' st sc ch q k1 k2 k3} : GramN E sname tb i x tb1 k1 → i.isPlain = true → GramN E scopes tb1 ps y tb2 k2 →
      (st, sc) ∈ storageCodes → GramN E ty tb2 t z tb' k3 → t.isPtr = false → (ch, q) ∈ cvCodes ++ memberCvCodes →
      GramN E decl tb (.var (some sc) (.qname (ps.snoc i)) (t.setQ q).one) (x ++ y ++ st :: z ++ [ch]) tb' (k1 + k2 + (k3 + 1))
  | varPtr {tb i x tb1 ps y tb2 cv a to z tb' st sc ch q k1 k2 k3} (e : Ext) : GramN E sname tb i x tb1 k1 →
      i.isPlain = true → GramN E scopes tb1 ps y tb2 k2 → (st, sc) ∈ storageCodes → GramN E ty tb2 (.ptr cv a .nil to) z tb' k3 →
      (ch, q) ∈ cvCodes ++ memberCvCodes →
      GramN E decl tb (.var (some sc) (.qname (ps.snoc i)) (T.one (.ptr (cv.or e.cv) a .nil (to.addQ q))))
        (x ++ y ++ st :: z ++ e.code ++ [ch]) tb' (k1 + k2 + (k3 + 1))
  | varMemberPtr {tb i x tb1 ps y tb2 cv a cls to z tb3 st sc ch q n u tb' k1 k2 k3 k4} (e : Ext) : GramN E sname tb i x tb1 k1 →
      i.isPlain = true → GramN E scopes tb1 ps y tb2 k2 → (st, sc) ∈ storageCodes → GramN E ty tb2 (.ptr cv a (T.one cls) to) z tb3 k3 →
      (ch, q) ∈ cvCodes ++ memberCvCodes → GramN E qtn tb3 n u tb' k4 →
      GramN E decl tb (.var (some sc) (.qname (ps.snoc i)) (T.one (.ptr (cv.or e.cv) a (T.one cls) (to.addQ q))))
        (x ++ y ++ st :: z ++ e.code ++ ch :: u) tb' (k1 + k2 + (k3 + k4 + 1))
  | varStructor {tb d ta x tb1 y tb2 t z tb' st sc ch q k1 k2 k3} {ps cls : T} : GramN E sname tb (.structor d .nil ta) x tb1 k1 →
      GramN E scopes tb1 (ps.snoc cls) y tb2 k2 → cls.isPlain = true →
      (st, sc) ∈ storageCodes → GramN E ty tb2 t z tb' k3 → t.isPtr = false → (ch, q) ∈ cvCodes ++ memberCvCodes →
      GramN E decl tb (.var (some sc) (.qname ((ps.snoc cls).snoc (.structor d cls.one ta))) (t.setQ q).one)
        (x ++ y ++ st :: z ++ [ch]) tb' (k1 + k2 + (k3 + 1))
  | varStructorPtr {tb d ta x tb1 y tb2 cv a to z tb' st sc ch q k1 k2 k3} {ps cls : T} (e : Ext) :
      GramN E sname tb (.structor d .nil ta) x tb1 k1 → GramN E scopes tb1 (ps.snoc cls) y tb2 k2 → cls.isPlain = true →
      (st, sc) ∈ storageCodes → GramN E ty tb2 (.ptr cv a .nil to) z tb' k3 → (ch, q) ∈ cvCodes ++ memberCvCodes →
      GramN E decl tb (.var (some sc) (.qname ((ps.snoc cls).snoc (.structor d cls.one ta)))
        (T.one (.ptr (cv.or e.cv) a .nil (to.addQ q)))) (x ++ y ++ st :: z ++ e.code ++ [ch]) tb' (k1 + k2 + (k3 + 1))
  | varStructorMemberPtr {tb d ta x tb1 y tb2 cv a c to z tb3 st sc ch q n u tb' k1 k2 k3 k4} {ps cls : T} (e : Ext) :
      GramN E sname tb (.structor d .nil ta) x tb1 k1 → GramN E scopes tb1 (ps.snoc cls) y tb2 k2 → cls.isPlain = true →
      (st, sc) ∈ storageCodes → GramN E ty tb2 (.ptr cv a (T.one c) to) z tb3 k3 → (ch, q) ∈ cvCodes ++ memberCvCodes →
      GramN E qtn tb3 n u tb' k4 →
      GramN E decl tb (.var (some sc) (.qname ((ps.snoc cls).snoc (.structor d cls.one ta)))
        (T.one (.ptr (cv.or e.cv) a (T.one c) (to.addQ q)))) (x ++ y ++ st :: z ++ e.code ++ ch :: u) tb' (k1 + k2 + (k3 + k4 + 1))
  | func {tb i x tb1 ps y tb2 sg z tb' k1 k2 k3} : GramN E sname tb i x tb1 k1 → i.isPlain = true → GramN E scopes tb1 ps y tb2 k2 →
      GramN E fenc tb2 sg z tb' k3 → GramN E decl tb (.fn (.qname (ps.snoc i)) sg) (x ++ y ++ z) tb' (k1 + k2 + k3)
  | structor {tb d ta x tb1 y tb2 sg z tb' k1 k2 k3} {ps cls : T} :
      GramN E sname tb (.structor d .nil ta) x tb1 k1 →
      GramN E scopes tb1 (ps.snoc cls) y tb2 k2 → cls.isPlain = true → GramN E fenc tb2 sg z tb' k3 →
      GramN E decl tb (.fn (.qname ((ps.snoc cls).snoc (.structor d cls.one ta))) sg) (x ++ y ++ z) tb' (k1 + k2 + k3)
  | conv {tb ta x tb1 ps y tb2 f r prs z tb' k1 k2 k3} :
      GramN E sname tb (.conv ta .nil) x tb1 k1 →
      GramN E scopes tb1 ps y tb2 k2 → GramN E fenc tb2 (.sig f (T.one r) prs) z tb' k3 →
      GramN E decl tb (.fn (.qname (ps.snoc (.conv ta (T.one r)))) (.sig f (T.one r) prs)) (x ++ y ++ z) tb' (k1 + k2 + k3)
  | convThunk {tb ta x tb1 ps y tb2 f adj r prs z tb' k1 k2 k3} :
      GramN E sname tb (.conv ta .nil) x tb1 k1 →
      GramN E scopes tb1 ps y tb2 k2 → GramN E fenc tb2 (.thunk f adj (T.one r) prs) z tb' k3 →
      GramN E decl tb (.fn (.qname (ps.snoc (.conv ta (T.one r)))) (.thunk f adj (T.one r) prs)) (x ++ y ++ z) tb' (k1 + k2 + k3)
  | sym {tb t x tb' k1} : GramN E decl tb t x tb' k1 → Free x → GramN E sym tb t ('?' :: x) tb' k1
  | hashLocator {tb u} : '@' ∉ u → GramN E sym tb (hashT (hashed u ++ locator)) (hashed u ++ locator) tb 4
  | narrow {tb xn n crc u bytes} : EncNat xn n → n ≠ 0 → '@' ∉ crc → EncBytes u bytes → bytes.length ≤ 128 →
      GramN E sym tb (.str (charKind (charWidth n bytes)) ((narrowShown n bytes).flatMap escape) (decide (bytes.length < n)))
        (c!"??_C@_0" ++ xn ++ crc ++ c!"@" ++ u ++ c!"@") tb 1
  | wide {tb xn n crc u vs} : EncNat xn n → 2 ≤ n → '@' ∉ crc → EncWide u vs → Fits ((wideShown n vs).flatMap escape) →
      GramN E sym tb (.str .Wchar ((wideShown n vs).flatMap escape) (decide (64 < n)))
        (c!"??_C@_1" ++ xn ++ crc ++ c!"@" ++ u ++ c!"@") tb 1
  | table {tb ps x tb' code nm ch q d k1} : (code, nm) ∈ tableCodes → GramN E scopes tb ps x tb' k1 →
      d ∈ c!"67" → (ch, q) ∈ cvCodes ++ memberCvCodes →
      GramN E sym tb (.table q (.qname (ps.snoc (.named nm .nil))) .nil) ('?' :: code ++ x ++ [d, ch, '@']) tb' (k1 + 2)
  | tableFor {tb ps x tb1 n y tb' code nm ch q d k1 k2} : (code, nm) ∈ tableCodes → GramN E scopes tb ps x tb1 k1 →
      d ∈ c!"67" → (ch, q) ∈ cvCodes ++ memberCvCodes → GramN E qtn tb1 n y tb' k2 →
      GramN E sym tb (.table q (.qname (ps.snoc (.named nm .nil))) n.one) ('?' :: code ++ x ++ d :: ch :: y) tb' (k1 + k2 + 2)
  | vcall {tb ps x tb' y n k1} (cc : Char) : GramN E scopes tb ps x tb' k1 → EncNat y n →
      GramN E sym tb (.fn (.qname (ps.snoc (.vcall n)))
        (.thunk { kind := { bare := true }, conv := convOf cc } .none .nil .nil))
        (c!"??_9" ++ x ++ c!"$B" ++ y ++ ['A', cc]) tb' (k1 + 3)
  | untyped {tb ps x tb' code nm k1} : (code, nm) ∈ untypedCodes → GramN E scopes tb ps x tb' k1 →
      GramN E sym tb (.var none (.qname (ps.snoc (.named nm .nil))) .nil) ('?' :: code ++ x ++ c!"8") tb' (k1 + 2)
  | baseDescr {tb ps y tb' x1 x2 x3 x4 nv vb vt fl k1} : EncNat x1 nv → EncSigned x2 vb → EncNat x3 vt → EncNat x4 fl →
      nv < 2 ^ 32 → -(2 ^ 31) ≤ vb ∧ vb < 2 ^ 31 → vt < 2 ^ 32 → fl < 2 ^ 32 → GramN E scopes tb ps y tb' k1 →
      GramN E sym tb (.var none (.qname (ps.snoc (.baseDescr nv vb vt fl))) .nil)
        (c!"??_R1" ++ x1 ++ x2 ++ x3 ++ x4 ++ y ++ c!"8") tb' (k1 + 2)
  | guardVar {tb ps x tb' y n k1} (th vis : Bool) : GramN E scopes tb ps x tb' k1 → EncNat y n → n < 2 ^ 32 →
      GramN E sym tb (.same (.qname (ps.snoc (.guardId th n))))
        ((if th then c!"??__J" else c!"??_B") ++ x ++ (if vis then c!"5" else c!"4IA") ++ y) tb' (k1 + 2)
  | dynVar {tb sc n t x tb1 sg y tb' k1 k2} (d known : Bool) : GramN E decl tb (.var sc n t) x tb1 k1 →
      (known = true ∨ x.head? ≠ some '?') → GramN E fenc tb1 sg y tb' k2 →
      GramN E sym tb (.fn (.qname (T.one (.dynVar d (.var sc n t)))) sg)
        ((if d then c!"??__F" else c!"??__E") ++ (if known then c!"?" else []) ++ x ++
          (if known then c!"@@" else c!"@") ++ y) tb' (k1 + k2 + 3)
  | dynFn {tb n sg x tb' k1} (d : Bool) : GramN E decl tb (.fn n sg) x tb' k1 → x.head? ≠ some '?' →
      GramN E sym tb (.fn (.qname (T.one (.dynFn d n))) sg) ((if d then c!"??__F" else c!"??__E") ++ x) tb' (k1 + 3)
  -- symbols that must end with the input
  | guardEnd {tb ps x tb' k1} (th vis : Bool) : GramN E scopes tb ps x tb' k1 →
      GramN E symEnd tb (.same (.qname (ps.snoc (.guardId th 0))))
        ((if th then c!"??__J" else c!"??_B") ++ x ++ (if vis then c!"5" else c!"4IA")) tb' (k1 + 2)
  | typeinfo {tb t x tb' k1} : GramN E tyR tb t x tb' k1 → GramN E symEnd tb (.typeDescr t) ('.' :: x) tb' (k1 + 1)
  | rttiType {tb t x tb' k1} : GramN E tyR tb t x tb' k1 →
      GramN E symEnd tb (.var none (.qname (T.one (.named c!"`RTTI Type Descriptor'" .nil))) t.one)
        (c!"??_R0" ++ x ++ c!"@8") tb' (k1 + 4)

/-- The name `m` denotes the declaration `t` (as in `Denotes`), at the cost of `n` nodes. -/
def DenotesN (E : Env) (m : Text) (t : T) (n : Nat) : Prop :=
  (∃ x rest tb', m = x ++ rest ∧ GramN E .sym {} t x tb' n) ∨
  (∃ tb', GramN E .symEnd {} t m tb' n) ∨
  (∃ u rest, m = hashed u ++ rest ∧ '@' ∉ u ∧ ¬ locator <+: rest ∧ t = hashT (hashed u) ∧ n = 4)

/-- The largest number of nodes. -/
def maxNodes : Nat := 2048

end Undname.Spec

/-
  Property theorems C35: what `NAME_ONLY` leaves.
-/
import Verif.Proof.DeclFn

namespace Undname
namespace Props
open Spec

variable {E : Env}

/-- **C35**: with `NAME_ONLY` (and any other flags), a variable demangles to exactly its qualified name, whatever its type,
storage class and qualifiers. -/
theorem C35_variables (hE : E.flags.name_only = true) {sc n t x tb'} (g : Gram E .sym {} (.var sc n t) x tb') (rest : Text) :
    Shows E (x ++ rest) (n.text E) := by
  have := shows_sym g rest
  have e : (T.var sc n t).text E = n.text E := by
    have h0 : storageText E sc = [] := by
      unfold storageText
      cases storageAccess sc <;> simp [hE]
    simp [T.text, T.pr, Pr.ofText, hE, h0]
  rwa [e] at this

theorem name_only_pre (hE : E.flags.name_only = true) (f : Sig) (r : Pr) (w : Text) : sigPre E f r false w = w := by
  simp [sigPre, hE]

theorem name_only_post (hE : E.flags.name_only = true) (f : Sig) (r p : Pr) (w : Text) :
    sigPost E f r p false w = w ++ (if f.isNoexcept then c!" noexcept" else []) := by
  simp [sigPost, hE]

/-- **C35**: a function demangles to its qualified name, followed by ` noexcept` if it is. -/
theorem C35_functions (hE : E.flags.name_only = true) {n f r p x tb'} (g : Gram E .sym {} (.fn n (.sig f r p)) x tb') (rest : Text) :
    Shows E (x ++ rest) (n.text E ++ (if f.isNoexcept then c!" noexcept" else [])) := by
  have := shows_sym g rest
  have e : (T.fn n (.sig f r p)).text E = n.text E ++ (if f.isNoexcept then c!" noexcept" else []) := by
    simp only [T.text, T.pr, Pr.ofText, Pr.ofType, name_only_pre hE, name_only_post hE]
    rfl
  rwa [e] at this

/-- **C35**: a thunk keeps its adjustment as well. -/
theorem C35_thunks (hE : E.flags.name_only = true) {n f a r p x tb'} (g : Gram E .sym {} (.fn n (.thunk f a r p)) x tb') (rest : Text) :
    Shows E (x ++ rest) (n.text E ++ a.text ++ (if f.isNoexcept then c!" noexcept" else [])) := by
  have := shows_sym g rest
  have e : (T.fn n (.thunk f a r p)).text E = n.text E ++ a.text ++ (if f.isNoexcept then c!" noexcept" else []) := by
    have h : thunkPrefix E = [] := by simp [thunkPrefix, hE]
    simp only [T.text, T.pr, Pr.ofText, Pr.ofType, name_only_pre hE, name_only_post hE, h, List.append_nil]
    rfl
  rwa [e] at this

/-- **C35**, in plain terms: a variable of any type. -/
theorem C35_variable_names (hE : E.flags.name_only = true) (w : Bool) {name : List Text} (hn : IsPath name) {t : Ty} (ht : t.Ok)
    (rest : Text) : Shows E (mangleVar w name t ++ rest) (showPath name) := by
  obtain ⟨tb', g⟩ := var_gram (E := E) w hn ht
  have := C35_variables hE g rest
  rwa [show (T.qname (pathT name)).text E = showPath name from by simpa [T.text] using path_out E name []] at this

/-- **C35**, in plain terms: a global function of any signature. -/
theorem C35_function_names (hE : E.flags.name_only = true) (w : Bool) {name : List Text} (hn : IsPath name) {f : Fn} (hf : f.Ok)
    (rest : Text) : Shows E (mangleFn w name f ++ rest) (showPath name ++ (if f.noexc then c!" noexcept" else [])) := by
  obtain ⟨tb', g⟩ := fn_gram (E := E) hn (fun tb => global_fenc w hf tb) {}
  have := C35_functions hE g rest
  rw [show (T.qname (pathT name)).text E = showPath name from by simpa [T.text] using path_out E name []] at this
  have e : (f.sgOf false false {}).isNoexcept = f.noexc := rfl
  rw [e] at this
  have e2 : c!"?" ++ manglePath name ++ (c!"Y" ++ f.mangle w) ++ rest = mangleFn w name f ++ rest := by
    simp only [mangleFn, List.append_assoc]
  rwa [e2] at this

/-- A 64-bit pointer. -/
example : demangle ⟨Flags.NAME_ONLY, fun _ => false⟩ c!"?x@N@@3PEAHEA" = .ok (.ok c!"N::x") := by
  have := C35_variable_names (E := ⟨Flags.NAME_ONLY, fun _ => false⟩) (by decide) true (name := [c!"x", c!"N"]) (by decide)
    (t := .ptr false false (.prim .Int false false)) (by decide) []
  exact this.short (by decide) (by decide +kernel)

/-- `noexcept` stays. -/
example : demangle ⟨Flags.NAME_ONLY, fun _ => false⟩ c!"?f@N@@YAHX_E" = .ok (.ok c!"N::f noexcept") := by
  have := C35_function_names (E := ⟨Flags.NAME_ONLY, fun _ => false⟩) (by decide) true (name := [c!"f", c!"N"]) (by decide)
    (f := { cc := 'A', ret := some (.prim .Int false false), params := [], noexc := true })
    ⟨fun t h => by cases h; trivial, fun t h => by cases h⟩ []
  exact this.short (by decide) (by decide +kernel)

end Props
end Undname

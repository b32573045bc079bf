import Verif.Py.Str
import Lean.Elab.Term

/-!
# Character lists from string literals

`"..".toList` is slow to evaluate in the kernel for long literals; `chars% ".."` is the list of
characters itself.
-/

open Lean Elab Term Meta in
/-- The list of characters of a string literal, as an explicit list. -/
elab "chars% " s:str : term =>
  mkListLit (mkConst ``Char)
    (s.getString.toList.map (fun c => mkApp (mkConst ``Char.ofNat) (mkRawNatLit c.toNat)))

import Verif.Parse.Model

/-!
# Structures of species

Model of `extract_smiles_species` and `extract_species`,
`/repo/Parse_eqn_file.py` lines 312-357 and 359-427.

Left abstract: `float` (`toFloat`) and `pybel.readstring` (`read`), both any function that
returns a value or raises.  Pybel objects are compared by identity in Python; an object is
modelled by the number of the species it was created for together with its contents.  Files
are lists of lines, and an XML file is the list of its `species` nodes: for each node the
attribute `species_name` and the text found by the pattern of line 342 in its first `smiles`
element, both absent if Python raises while reading them.
-/

namespace PyBox

/-- What `extract_species` returns (lines 416-425). -/
structure Snapshot (O : Type) where
  /-- `smiles_array` -/
  array : List Str := []
  /-- `SMILES_dict` -/
  smiles : Dict Str Str := []
  /-- `concentration_array` -/
  conc : List ℚ := []
  /-- `Pybel_object_dict` -/
  pybel : Dict Str (ℕ × O) := []
  /-- `Pybel_object_activity`, by object identity -/
  activity : Dict ℕ ℚ := []
  /-- `species_dict` -/
  species : Dict ℕ Str := []
  /-- `species_dict2array` -/
  index : Dict Str ℕ := []
  /-- `concentration_dict`, by object identity -/
  concOf : Dict ℕ ℚ := []
  /-- `species_step` -/
  next : ℕ := 0

/-- One line of the file, lines 392-411. -/
def snapshotStep {O : Type} (toFloat : Str → Except PyErr ℚ) (read : Str → Except PyErr O)
    (st : Snapshot O) (line : Str) : Except PyErr (Snapshot O) :=
  match words line with
  | [] => .error .index
  | s :: rest =>
    if s ∈ st.species.values then .ok st
    else match rest with
      | [] => .error .index
      | v :: _ =>
        match toFloat v with
        | .error e => .error e
        | .ok c =>
          match read s with
          | .error e => .error e
          | .ok o => .ok
            { array := st.array ++ [s]
              smiles := st.smiles.set s s
              conc := st.conc ++ [c]
              pybel := st.pybel.set s (st.next, o)
              activity := st.activity.set st.next c
              species := st.species.set st.next s
              index := st.index.set s st.next
              concOf := st.concOf.set st.next c
              next := st.next + 1 }

/-- `extract_species` on the lines of the file. -/
def extractSpecies {O : Type} (toFloat : Str → Except PyErr ℚ) (read : Str → Except PyErr O)
    (lines : List Str) : Except PyErr (Snapshot O) :=
  lines.foldlM (snapshotStep toFloat read) {}

/-- A `species` node of the XML file. -/
structure Node where
  name : Option Str
  smiles : Option Str

/-- Line 335. -/
def oxidants : List Str :=
  [['O', 'H'], ['H', 'O', '2'], ['O', '3'], ['h', 'v']]

/-- State of the loop at line 333: the variable `species_SMILES`, which survives from one node
to the next, and the two dictionaries. -/
structure SmilesState (O : Type) where
  current : Option Str := none
  smiles : Dict Str Str := []
  pybel : Dict Str O := []

/-- One node, lines 334-348.  After the `except` of line 343 the variable keeps its old value;
without an old value line 345 raises `UnboundLocalError`. -/
def smilesStep {O : Type} (species : Dict ℕ Str) (read : Str → Except PyErr O)
    (st : SmilesState O) (n : Node) : Except PyErr (SmilesState O) :=
  match n.name with
  | none => .error .key
  | some name =>
    if name ∈ oxidants then .ok st
    else if name ∈ species.values then
      match n.smiles.or st.current with
      | none => .error .name
      | some s =>
        match read s with
        | .error e => .error e
        | .ok o => .ok ⟨some s, st.smiles.set name s, st.pybel.set s o⟩
    else .ok st

/-- `extract_smiles_species`: `SMILES_dict` and `Pybel_object_dict`. -/
def extractSmiles {O : Type} (species : Dict ℕ Str) (read : Str → Except PyErr O)
    (nodes : List Node) : Except PyErr (Dict Str Str × Dict Str O) :=
  match nodes.foldlM (smilesStep species read) {} with
  | .error e => .error e
  | .ok st => .ok (st.smiles, st.pybel)

end PyBox

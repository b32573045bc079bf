import Verif.Props.Parsing
import Verif.Gen.Lines
import Verif.Props.Jacobian
import Verif.Props.Peroxy
import Verif.Props.GeneratedRates

/-!
# C69: generated routines stay within their arrays

The sizes are those the generators declare: `/repo/Parse_eqn_file.py` lines 2319–2321 (reactants), 2561–2563
(loss and gain), 2711–2715 (Jacobian).  The Python routines work on arrays of the same sizes
(`/repo/ODE_solver.py` lines 99–104, `/repo/Parse_eqn_file.py` lines 2213, 2440 and 2989).  The rate files
have arrays of photolysis rates of 62 elements (line 754, plain Python), 63 elements (`/repo/ODE_solver.py`
line 99, numba) and 61 elements (line 1368, Fortran).
-/

namespace PyBox

/-! ### Specification -/

namespace Spec

/-- The subscript of an operand is one of an array of `species` concentrations or `reactions` rates whose
first element has number `first`. -/
def InArrays (first species reactions : Nat) : Fac → Prop
  | .y i => first ≤ i ∧ i < first + species
  | .ypow i _ => first ≤ i ∧ i < first + species
  | .r e => first ≤ e ∧ e < first + reactions
  | .num _ => True

/-- No line reads outside the arrays; every line assigns to a place with property `target`. -/
def StaysInside {κ : Type} (first species reactions : Nat) (target : κ → Prop) (P : List (Line κ)) : Prop :=
  ∀ k rhs, .asg k rhs ∈ P → target k ∧ ∀ f, Tok.fac f ∈ rhs → InArrays first species reactions f

/-- Subscripts of an array of `n` elements that starts at `first`. -/
def Within (first n : Nat) (k : Nat) : Prop := first ≤ k ∧ k < first + n

/-- First subscript and size of the array of photolysis rates. -/
def photolysisArray : Rl.Backend → Nat × Nat
  | .python => (0, 62)
  | .numba => (0, 63)
  | .fortran => (1, 61)

/-- A scalar, or an element of one of the two arrays of a rate file that exists. -/
def FitsRateFile (b : Rl.Backend) (reactions : Nat) (v : Rl.Var) : Prop :=
  ∀ k, v.idx = some k →
    (v.name = b.name "J".toList ∧ Within (photolysisArray b).1 (photolysisArray b).2 k) ∨
    (v.name = b.name "rate_values".toList ∧ Within (if b = .fortran then 1 else 0) reactions k)

/-- Every variable a statement mentions. -/
def mentioned : Rl.Stmt → List Rl.Var
  | .asg v e => v :: e.vars
  | .ifLe a b t e => a.vars ++ b.vars ++ (t ++ e).flatMap (fun p => p.1 :: p.2.vars)

end Spec

open Spec

/-! ### Helpers -/

theorem index_lt {text : Str} {m : Mechanism} (h : extractMechanism text = .ok m) {s : Str} {i : Nat}
    (hs : m.tables.index.get? s = some i) : i < m.tables.species.length := (C01_indices h i).1 ⟨s, hs⟩

theorem loss_key_lt {text : Str} {m : Mechanism} (h : extractMechanism text = .ok m) {qs : List RawEqn}
    (hq : Reads text m.equations.toNat qs) {s : Str} {e : Nat} (he : e ∈ (m.tables.loss.getD s []).keys) :
    e < qs.length := by
  obtain ⟨c, hc⟩ := Option.isSome_iff_exists.1 ((mem_keys_cell _ _ _).1 he)
  rw [C05_loss_coefficients h hq] at hc
  by_contra hlt
  rw [List.getElem?_eq_none (not_lt.1 hlt)] at hc
  cases hc

theorem gain_key_lt {text : Str} {m : Mechanism} (h : extractMechanism text = .ok m) {qs : List RawEqn}
    (hq : Reads text m.equations.toNat qs) {s : Str} {e : Nat} (he : e ∈ (m.tables.gain.getD s []).keys) :
    e < qs.length := by
  obtain ⟨c, hc⟩ := Option.isSome_iff_exists.1 ((mem_keys_cell _ _ _).1 he)
  rw [cell_gain h hq] at hc
  by_contra hlt
  rw [List.getElem?_eq_none (not_lt.1 hlt)] at hc
  cases hc

theorem lookup_ok {α β : Type} [DecidableEq α] {d : Dict α β} {k : α} {v : β} (h : lookup d k = .ok v) :
    d.get? k = some v := by
  unfold lookup at h
  split at h
  · rename_i w hw; cases h; exact hw
  · cases h

theorem inArrays_yFac {first n e i : Nat} {s : ℚ} (h : Within first n i) : InArrays first n e (yFac i s) := by
  unfold yFac
  split <;> exact h

/-- Operands of a list of tokens. -/
def facsIn (P : Fac → Prop) (ts : List Tok) : Prop := ∀ f, Tok.fac f ∈ ts → P f

theorem facsIn_nil {P : Fac → Prop} : facsIn P [] := fun _ h => absurd h (by simp)

theorem facsIn_append {P : Fac → Prop} {a b : List Tok} (ha : facsIn P a) (hb : facsIn P b) :
    facsIn P (a ++ b) := fun f hf => (List.mem_append.1 hf).elim (ha f) (hb f)

theorem facsIn_cons {P : Fac → Prop} {f : Fac} {b : List Tok} (ha : P f) (hb : facsIn P b) :
    facsIn P (.fac f :: b) := by
  intro g hg
  rcases List.mem_cons.1 hg with h | h
  · cases h; exact ha
  · exact hb g h

theorem facsIn_cons' {P : Fac → Prop} {t : Tok} {b : List Tok} (ht : ∀ f, t ≠ .fac f) (hb : facsIn P b) :
    facsIn P (t :: b) := by
  intro g hg
  rcases List.mem_cons.1 hg with h | h
  · exact absurd h.symm (ht g)
  · exact hb g h

theorem bind_ok {α β : Type} {x : Except PyErr α} {f : α → Except PyErr β} {b : β} (h : x >>= f = .ok b) :
    ∃ a, x = .ok a ∧ f a = .ok b := by
  cases x with
  | error e => cases h
  | ok a => exact ⟨a, rfl, h⟩

theorem foldlM_inv {α β : Type} {f : β → α → Except PyErr β} {P : β → Prop} (l : List α)
    (hf : ∀ b a b', a ∈ l → P b → f b a = .ok b' → P b') : ∀ b b', P b → l.foldlM f b = .ok b' → P b' := by
  induction l with
  | nil => intro b b' hb h; cases h; exact hb
  | cons a l ih =>
    intro b b' hb h
    rw [List.foldlM_cons] at h
    obtain ⟨c, hc, h⟩ := bind_ok h
    exact ih (fun b a b' ha => hf b a b' (List.mem_cons_of_mem _ ha)) c b'
      (hf b a c (List.mem_cons_self ..) hb hc) h

theorem mapM_mem {α β : Type} {f : α → Except PyErr β} : ∀ (l : List α) (l' : List β), l.mapM f = .ok l' →
    ∀ b ∈ l', ∃ a ∈ l, f a = .ok b := by
  intro l
  induction l with
  | nil => intro l' h b hb; cases h; simp at hb
  | cons a l ih =>
    intro l' h b hb
    rw [List.mapM_cons] at h
    obtain ⟨c, hc, h⟩ := bind_ok h
    obtain ⟨cs, hcs, h⟩ := bind_ok h
    cases h
    rcases List.mem_cons.1 hb with rfl | hb
    · exact ⟨a, List.mem_cons_self .., hc⟩
    · obtain ⟨a', ha', h'⟩ := ih cs hcs b hb
      exact ⟨a', List.mem_cons_of_mem _ ha', h'⟩

theorem withOmp_asg {κ : Type} {breaks : Option (List Nat)} {groups : List (List (Line κ))} {k : κ}
    {rhs : List Tok} (h : Line.asg k rhs ∈ withOmp breaks groups) : ∃ g ∈ groups, Line.asg k rhs ∈ g := by
  unfold withOmp at h
  cases breaks with
  | none => exact List.mem_flatten.1 h
  | some bs =>
    rcases List.mem_append.1 h with h | h
    · obtain ⟨g, hg, h⟩ := List.mem_flatten.1 h
      obtain ⟨gi, hgi, rfl⟩ := List.mem_map.1 hg
      rcases List.mem_append.1 h with h | h
      · unfold ompBefore at h
        rcases List.mem_append.1 h with h | h <;> split at h <;> simp at h
      · exact ⟨gi.1, (List.mem_zipIdx' hgi).2 ▸ List.getElem_mem _, h⟩
    · simp at h

/-- Tables whose numbers fit `n` species and `q` reactions. -/
structure Fits (g : GenIn) (n q : Nat) : Prop where
  index : ∀ p ∈ g.index, p.2 < n
  loss : ∀ s, ∀ e ∈ (g.loss.getD s []).keys, e < q
  gain : ∀ s, ∀ e ∈ (g.gain.getD s []).keys, e < q

theorem Fits.get {g : GenIn} {n q : Nat} (h : Fits g n q) {s : Str} {i : Nat} (hs : lookup g.index s = .ok i) :
    i < n := h.index (s, i) (Dict.mem_of_get?_eq_some (lookup_ok hs))

/-! ### Reactant products -/

/-- Both languages: `off` is 0 for Python and 1 for Fortran. -/
theorem reactantStep_in {g : GenIn} {n q e : Nat} (h : Fits g n q) {st st' : Option (List Tok)} {name : Str}
    (off : Nat) (hst : ∀ ts, st = some ts → facsIn (InArrays off n q) ts)
    (hs : (off = 0 ∧ reactantStepPy g e st name = .ok st') ∨ (off = 1 ∧ reactantStepF g e st name = .ok st')) :
    ∀ ts, st' = some ts → facsIn (InArrays off n q) ts := by
  rcases hs with ⟨rfl, hs⟩ | ⟨rfl, hs⟩
  all_goals
    first | unfold reactantStepPy at hs | unfold reactantStepF at hs
    split at hs
    · cases hs; exact hst
    · obtain ⟨c, -, hs⟩ := bind_ok hs
      obtain ⟨i, hi, hs⟩ := bind_ok hs
      have hi := h.get hi
      cases st with
      | none =>
        cases hs
        intro ts hts
        cases hts
        exact facsIn_cons (inArrays_yFac (by unfold Within; omega)) facsIn_nil
      | some ts0 =>
        cases hs
        intro ts hts
        cases hts
        exact facsIn_append (hst _ rfl) (facsIn_cons' (by simp)
          (facsIn_cons (inArrays_yFac (by unfold Within; omega)) facsIn_nil))

theorem toLine_asg {κ : Type} {k k' : κ} {o : Option (List Tok)} {rhs : List Tok}
    (h : Line.asg k' rhs = toLine k o) : k' = k ∧ o = some rhs := by
  cases o with
  | none => cases h
  | some ts => cases h; exact ⟨rfl, rfl⟩

theorem writeReactantsPy_in {g : GenIn} {n q : Nat} (h : Fits g n q) {P : List (Line Nat)}
    (hP : writeReactantsPy g q = .ok P) : StaysInside 0 n q (Within 0 q) P := by
  intro k rhs hk
  obtain ⟨e, he, h1⟩ := mapM_mem _ _ hP _ hk
  obtain ⟨l, hl, h1⟩ := bind_ok h1
  have h1 : toLine e l = Line.asg k rhs := Except.ok.inj h1
  obtain ⟨rfl, rfl⟩ := toLine_asg h1.symm
  refine ⟨by unfold Within; have := List.mem_range.1 he; omega, ?_⟩
  exact foldlM_inv (P := fun st => ∀ ts, st = some ts → facsIn (InArrays 0 n q) ts) _
    (fun b a b' _ hb hs => reactantStep_in h 0 hb (.inl ⟨rfl, hs⟩)) _ _ (by simp) hl _ rfl

theorem writeReactantsF_in {g : GenIn} {n q : Nat} (h : Fits g n q) {cores : Option Nat} {P : List (Line Nat)}
    (hP : writeReactantsF g q cores = .ok P) : StaysInside 1 n q (Within 1 q) P := by
  intro k rhs hk
  obtain ⟨ls, hls, hP⟩ := bind_ok hP
  cases hP
  obtain ⟨grp, hg, hk⟩ := withOmp_asg hk
  obtain ⟨e, he, h1⟩ := mapM_mem _ _ hls _ hg
  obtain ⟨l, hl, h1⟩ := bind_ok h1
  have h1 : [toLine (e + 1) l] = grp := Except.ok.inj h1
  subst h1
  obtain ⟨rfl, rfl⟩ := toLine_asg (List.mem_singleton.1 hk)
  refine ⟨by unfold Within; have := List.mem_range.1 he; omega, ?_⟩
  exact foldlM_inv (P := fun st => ∀ ts, st = some ts → facsIn (InArrays 1 n q) ts) _
    (fun b a b' _ hb hs => reactantStep_in h 1 hb (.inr ⟨rfl, hs⟩)) _ _ (by simp) hl _ rfl

/-! ### Loss and gain -/

theorem facsIn_timesStoich {n q off : Nat} (s : ℚ) : facsIn (InArrays off n q) (timesStoich s) := by
  unfold timesStoich
  split
  · exact facsIn_nil
  · exact facsIn_cons' (by simp) (facsIn_cons trivial facsIn_nil)

theorem lossToksPy_in {n q : Nat} : ∀ (first : Bool) (d : Dict Nat ℚ), (∀ e ∈ d.keys, e < q) →
    facsIn (InArrays 0 n q) (lossToksPy first d) := by
  intro first d
  induction d generalizing first with
  | nil => intro _; simp only [lossToksPy]; exact facsIn_nil
  | cons p d ih =>
    intro hd
    have hp : InArrays 0 n q (.r p.1) := ⟨by omega, by have := hd p.1 (by simp [Dict.keys]); omega⟩
    have hr := ih false (fun e he => hd e (by simp [Dict.keys] at he ⊢; exact .inr he))
    cases first
    · exact facsIn_append (facsIn_append (facsIn_cons' (by simp) (facsIn_cons hp facsIn_nil))
        (facsIn_timesStoich _)) hr
    · exact facsIn_append (facsIn_append (facsIn_cons' (by simp) (facsIn_cons trivial (facsIn_cons' (by simp)
        (facsIn_cons hp facsIn_nil)))) (facsIn_timesStoich _)) hr

theorem gainToksPy_in {n q : Nat} : ∀ (d : Dict Nat ℚ), (∀ e ∈ d.keys, e < q) →
    facsIn (InArrays 0 n q) (gainToksPy d) := by
  intro d
  induction d with
  | nil => intro _; simp only [gainToksPy]; exact facsIn_nil
  | cons p d ih =>
    intro hd
    have hp : InArrays 0 n q (.r p.1) := ⟨by omega, by have := hd p.1 (by simp [Dict.keys]); omega⟩
    have hr := ih (fun e he => hd e (by simp [Dict.keys] at he ⊢; exact .inr he))
    exact facsIn_append (facsIn_append (facsIn_cons' (by simp) (facsIn_cons hp facsIn_nil))
        (facsIn_timesStoich _)) hr

theorem facsIn_contBefore {P : Fac → Prop} (limit flag : Nat) : facsIn P (contBefore limit flag).1 := by
  unfold contBefore
  split
  · exact facsIn_cons' (by simp) facsIn_nil
  · exact facsIn_nil

theorem facsIn_stoichF {n q off : Nat} (s : ℚ) :
    facsIn (InArrays off n q) (if s = 1 then [] else [Tok.mul, .fac (.num (s + 1))]) := by
  split
  · exact facsIn_nil
  · exact facsIn_cons' (by simp) (facsIn_cons trivial facsIn_nil)

theorem lossToksF_in {n q : Nat} : ∀ (d : Dict Nat ℚ) (first : Bool) (flag : Nat), (∀ e ∈ d.keys, e < q) →
    facsIn (InArrays 1 n q) (lossToksF first flag d).1 := by
  intro d
  induction d with
  | nil => intro first flag _; simp only [lossToksF]; exact facsIn_nil
  | cons p d ih =>
    intro first flag hd
    have hp : InArrays 1 n q (.r (p.1 + 1)) := ⟨by omega, by have := hd p.1 (by simp [Dict.keys]); omega⟩
    have hr := fun flag => ih false flag (fun e he => hd e (by simp [Dict.keys] at he ⊢; exact .inr he))
    refine facsIn_append (facsIn_append (facsIn_append (facsIn_contBefore _ _) ?_) (facsIn_stoichF _)) (hr _)
    cases first
    · exact facsIn_cons' (by simp) (facsIn_cons hp facsIn_nil)
    · exact facsIn_cons' (by simp) (facsIn_cons trivial (facsIn_cons' (by simp) (facsIn_cons hp facsIn_nil)))

theorem gainToksF_in {n q : Nat} : ∀ (d : Dict Nat ℚ) (flag : Nat), (∀ e ∈ d.keys, e < q) →
    facsIn (InArrays 1 n q) (gainToksF flag d) := by
  intro d
  induction d with
  | nil => intro flag _; simp only [gainToksF]; exact facsIn_nil
  | cons p d ih =>
    intro flag hd
    have hp : InArrays 1 n q (.r (p.1 + 1)) := ⟨by omega, by have := hd p.1 (by simp [Dict.keys]); omega⟩
    have hr := fun flag => ih flag (fun e he => hd e (by simp [Dict.keys] at he ⊢; exact .inr he))
    exact facsIn_append (facsIn_append (facsIn_append (facsIn_contBefore _ _)
      (facsIn_cons' (by simp) (facsIn_cons hp facsIn_nil))) (facsIn_stoichF _)) (hr _)

theorem writeLossGainPy_in {g : GenIn} {n q : Nat} (h : Fits g n q) :
    StaysInside 0 n q (Within 0 n) (writeLossGainPy g) := by
  intro k rhs hk
  obtain ⟨s, hs, -, rfl⟩ := (mem_writeLossGainPy _ _ _).1 hk
  exact ⟨⟨by omega, by have := h.index _ hs; dsimp only at this; omega⟩,
    facsIn_append (lossToksPy_in _ _ (h.loss _)) (gainToksPy_in _ (h.gain _))⟩

theorem writeLossGainF_in {g : GenIn} {n q : Nat} (h : Fits g n q) (m : Nat) (cores : Option Nat) :
    StaysInside 1 n q (Within 1 n) (writeLossGainF g m cores) := by
  intro k rhs hk
  obtain ⟨grp, hg, hk⟩ := withOmp_asg hk
  obtain ⟨p, hp, rfl⟩ := List.mem_map.1 hg
  have hk := (List.mem_singleton.1 hk).symm
  unfold tendencyLineF at hk
  split at hk
  · cases hk
  · split at hk
    · cases hk
      refine ⟨⟨by omega, by have := h.index p hp; omega⟩, facsIn_append ?_ ?_⟩
      · split
        · exact lossToksF_in _ _ _ (h.loss _)
        · exact facsIn_nil
      · split
        · exact gainToksF_in _ _ (h.gain _)
        · exact facsIn_nil
    · cases hk

/-! ### Jacobian -/

theorem jacFactor_in {g : GenIn} {n q off : Nat} (h : Fits g n q) {sign : Tok} (hsign : ∀ f, sign ≠ .fac f)
    {x r2 : Str} {e : Nat} {sf : ℚ} {st st' : Option (List Tok)}
    (hst : ∀ ts, st = some ts → facsIn (InArrays off n q) ts)
    (hs : jacFactor g off sign x e sf st r2 = .ok st') :
    ∀ ts, st' = some ts → facsIn (InArrays off n q) ts := by
  unfold jacFactor at hs
  split at hs
  · cases hs; exact hst
  split at hs
  · split at hs
    · cases hs; exact hst
    obtain ⟨i, hi, hs⟩ := bind_ok hs
    have hi := h.get hi
    have hy : Within off n (i + off) := ⟨by omega, by omega⟩
    split at hs
    · cases st with
      | none =>
        cases hs; intro ts hts; cases hts
        exact facsIn_cons' hsign (facsIn_cons trivial (facsIn_cons' (by simp) (facsIn_cons hy facsIn_nil)))
      | some ts0 =>
        cases hs; intro ts hts; cases hts
        exact facsIn_append (hst _ rfl) (facsIn_cons' (by simp) (facsIn_cons trivial (facsIn_cons' (by simp)
          (facsIn_cons hy facsIn_nil))))
    · split at hs
      · cases st with
        | none =>
          cases hs; intro ts hts; cases hts
          exact facsIn_cons' hsign (facsIn_cons trivial (facsIn_cons' (by simp) (facsIn_cons hy facsIn_nil)))
        | some ts0 =>
          cases hs; intro ts hts; cases hts
          exact facsIn_append (hst _ rfl) (facsIn_cons' (by simp) (facsIn_cons trivial (facsIn_cons' (by simp)
            (facsIn_cons hy facsIn_nil))))
      · cases hs; exact hst
  · obtain ⟨c, -, hs⟩ := bind_ok hs
    obtain ⟨i, hi, hs⟩ := bind_ok hs
    have hi := h.get hi
    have hy : Within off n (i + off) := ⟨by omega, by omega⟩
    cases st with
    | none =>
      cases hs; intro ts hts; cases hts
      exact facsIn_cons' hsign (facsIn_cons trivial (facsIn_cons' (by simp)
        (facsIn_cons (inArrays_yFac hy) facsIn_nil)))
    | some ts0 =>
      cases hs; intro ts hts; cases hts
      exact facsIn_append (hst _ rfl) (facsIn_cons' (by simp) (facsIn_cons (inArrays_yFac hy) facsIn_nil))

theorem jacTerm_in {g : GenIn} {ord : SetOrder} {n q off : Nat} (h : Fits g n q) {sign : Tok}
    (hsign : ∀ f, sign ≠ .fac f) {x : Str} {e : Nat} (he : e < q) {ts : List Tok}
    (ht : jacTerm g ord off sign x e = .ok ts) : facsIn (InArrays off n q) ts := by
  have hr : InArrays off n q (.r (e + off)) := ⟨by omega, by omega⟩
  unfold jacTerm at ht
  obtain ⟨sf, -, ht⟩ := bind_ok ht
  obtain ⟨st, hst, ht⟩ := bind_ok ht
  have hin := foldlM_inv (P := fun st => ∀ ts, st = some ts → facsIn (InArrays off n q) ts) _
    (fun b a b' _ hb hs => jacFactor_in h hsign hb hs) _ _ (by simp) hst
  cases st with
  | none =>
    cases ht
    exact facsIn_cons' hsign (facsIn_cons trivial (facsIn_cons' (by simp) (facsIn_cons hr facsIn_nil)))
  | some ts0 =>
    cases ht
    exact facsIn_append (hin _ rfl) (facsIn_cons' (by simp) (facsIn_cons hr facsIn_nil))

theorem jacTermsPy_in {g : GenIn} {ord : SetOrder} {n q : Nat} (h : Fits g n q) {sign : Tok}
    (hsign : ∀ f, sign ≠ .fac f) {x : Str} : ∀ (es : List Nat), (∀ e ∈ es, e < q) → ∀ ts,
    jacTermsPy g ord sign x es = .ok ts → facsIn (InArrays 0 n q) ts := by
  intro es
  induction es with
  | nil => intro _ ts ht; simp only [jacTermsPy] at ht; cases ht; exact facsIn_nil
  | cons e es ih =>
    intro hes ts ht
    have hr := ih (fun e he => hes e (List.mem_cons_of_mem _ he))
    simp only [jacTermsPy] at ht
    split at ht
    · obtain ⟨t, h1, ht⟩ := bind_ok ht
      obtain ⟨r, h2, ht⟩ := bind_ok ht
      cases ht
      exact facsIn_append (jacTerm_in h hsign (hes e (List.mem_cons_self ..)) h1) (hr _ h2)
    · exact hr _ ht

theorem jacTermsF_in {g : GenIn} {ord : SetOrder} {n q : Nat} (h : Fits g n q) {sign : Tok}
    (hsign : ∀ f, sign ≠ .fac f) {x : Str} : ∀ (es : List Nat), (∀ e ∈ es, e < q) → ∀ flag ts,
    jacTermsF g ord sign x flag es = .ok ts → facsIn (InArrays 1 n q) ts.1 := by
  intro es
  induction es with
  | nil => intro _ flag ts ht; simp only [jacTermsF] at ht; cases ht; exact facsIn_nil
  | cons e es ih =>
    intro hes flag ts ht
    have hr := ih (fun e he => hes e (List.mem_cons_of_mem _ he))
    simp only [jacTermsF] at ht
    split at ht
    · obtain ⟨t, h1, ht⟩ := bind_ok ht
      obtain ⟨r, h2, ht⟩ := bind_ok ht
      cases ht
      exact facsIn_append (facsIn_append (facsIn_contBefore _ _)
        (jacTerm_in h hsign (hes e (List.mem_cons_self ..)) h1)) (hr _ _ h2)
    · exact hr _ _ ht

theorem writeJacobianPy_in {g : GenIn} {ord : SetOrder} {n q : Nat} (h : Fits g n q)
    {P : List (Line (Nat × Nat))} (hP : writeJacobianPy g ord = .ok P) :
    StaysInside 0 n q (fun k => Within 0 n k.1 ∧ Within 0 n k.2) P := by
  intro k rhs hk
  obtain ⟨ls, hls, hP⟩ := bind_ok hP
  cases hP
  obtain ⟨grp, hg, hk⟩ := List.mem_flatten.1 hk
  obtain ⟨p, hp, h1⟩ := mapM_mem _ _ hls _ hg
  have hp := h.index p hp
  unfold jacLinesPy at h1
  split at h1
  · cases h1; simp at hk
  obtain ⟨x, -, h1⟩ := mapM_mem _ _ h1 _ hk
  obtain ⟨j, hj, h1⟩ := bind_ok h1
  obtain ⟨l, hl, h1⟩ := bind_ok h1
  obtain ⟨k', hk', h1⟩ := bind_ok h1
  cases h1
  have hj := h.get hj
  exact ⟨⟨⟨by omega, by dsimp only; omega⟩, ⟨by omega, by dsimp only; omega⟩⟩,
    facsIn_append (jacTermsPy_in h (by simp) _ (h.loss _) _ hl) (jacTermsPy_in h (by simp) _ (h.gain _) _ hk')⟩

theorem writeJacobianF_in {g : GenIn} {ord : SetOrder} {n q : Nat} (h : Fits g n q) {m : Nat}
    {cores : Option Nat} {P : List (Line (Nat × Nat))} (hP : writeJacobianF g ord m cores = .ok P) :
    StaysInside 1 n q (fun k => Within 1 n k.1 ∧ Within 1 n k.2) P := by
  intro k rhs hk
  obtain ⟨ls, hls, hP⟩ := bind_ok hP
  cases hP
  obtain ⟨grp, hg, hk⟩ := withOmp_asg hk
  obtain ⟨p, hp, h1⟩ := mapM_mem _ _ hls _ hg
  have hp := h.index p hp
  unfold jacLinesF at h1
  split at h1
  · cases h1; simp at hk
  obtain ⟨x, -, h1⟩ := mapM_mem _ _ h1 _ hk
  obtain ⟨j, hj, h1⟩ := bind_ok h1
  obtain ⟨l, hl, h1⟩ := bind_ok h1
  obtain ⟨k', hk', h1⟩ := bind_ok h1
  cases h1
  have hj := h.get hj
  exact ⟨⟨⟨by omega, by dsimp only; omega⟩, ⟨by omega, by dsimp only; omega⟩⟩,
    facsIn_append (jacTermsF_in h (by simp) _ (h.loss _) _ _ hl)
      (jacTermsF_in h (by simp) _ (h.gain _) _ _ hk')⟩

/-! ### Rate files -/

open Rl in
theorem mem_vars_scopedAsgs {v : Var} : ∀ (l : List (Var × Ex)) (known x : List Var),
    scopedAsgs known l = some x → (∀ w ∈ x, w ∈ known ∨ w ∈ l.map Prod.fst) ∧
      (v ∈ l.flatMap (fun p => p.1 :: p.2.vars) → v ∈ known ∨ v ∈ l.map Prod.fst) := by
  intro l
  induction l with
  | nil => intro known x h; cases h; simp
  | cons p l ih =>
    intro known x h
    rw [scopedAsgs] at h
    split at h
    · rename_i hall
      rw [List.all_eq_true] at hall
      obtain ⟨h1, h2⟩ := ih _ _ h
      constructor
      · intro w hw
        rcases h1 w hw with hk | hk
        · rcases List.mem_cons.1 hk with rfl | hk
          · exact .inr (by simp)
          · exact .inl hk
        · exact .inr (by rw [List.map_cons]; exact List.mem_cons_of_mem _ hk)
      · intro hv
        rw [List.flatMap_cons, List.mem_append] at hv
        rcases hv with hv | hv
        · rcases List.mem_cons.1 hv with rfl | hv
          · exact .inr (by simp)
          · exact .inl (by simpa using hall v hv)
        · rcases h2 hv with hk | hk
          · rcases List.mem_cons.1 hk with rfl | hk
            · exact .inr (by simp)
            · exact .inl hk
          · exact .inr (by rw [List.map_cons]; exact List.mem_cons_of_mem _ hk)
    · cases h

open Rl in
/-- What a well scoped program mentions is known before or assigned by it. -/
theorem mentioned_scoped (p : List Stmt) : ∀ known : List Var, wellScoped known p = true →
    ∀ v ∈ p.flatMap mentioned, v ∈ known ∨ v ∈ p.flatMap Stmt.assigned := by
  induction p with
  | nil => intro _ _ v hv; simp at hv
  | cons s p ih =>
    intro known h v hv
    rw [List.flatMap_cons, List.mem_append] at hv
    rw [List.flatMap_cons, List.mem_append]
    cases s with
    | asg w e =>
      rw [wellScoped, Bool.and_eq_true, List.all_eq_true] at h
      rcases hv with hv | hv
      · rcases List.mem_cons.1 hv with rfl | hv
        · exact .inr (.inl (by simp [Stmt.assigned]))
        · exact .inl (by simpa using h.1 v hv)
      · rcases ih _ h.2 v hv with hk | hk
        · rcases List.mem_cons.1 hk with rfl | hk
          · exact .inr (.inl (by simp [Stmt.assigned]))
          · exact .inl hk
        · exact .inr (.inr hk)
    | ifLe a c t e =>
      rw [wellScoped, Bool.and_eq_true, Bool.and_eq_true, List.all_eq_true, List.all_eq_true] at h
      obtain ⟨⟨ha, hc⟩, h⟩ := h
      split at h
      · rename_i x y hx hy
        obtain ⟨x1, x2⟩ := mem_vars_scopedAsgs (v := v) _ _ _ hx
        obtain ⟨y1, y2⟩ := mem_vars_scopedAsgs (v := v) _ _ _ hy
        have key : v ∈ t.map Prod.fst ∨ v ∈ e.map Prod.fst → v ∈ (Stmt.ifLe a c t e).assigned := by
          rw [Stmt.assigned, List.map_append, List.mem_append]
          exact id
        rcases hv with hv | hv
        · rw [mentioned, List.mem_append, List.mem_append, List.flatMap_append, List.mem_append] at hv
          rcases hv with (hv | hv) | hv | hv
          · exact .inl (by simpa using ha v hv)
          · exact .inl (by simpa using hc v hv)
          · rcases x2 hv with hk | hk
            · exact .inl hk
            · exact .inr (.inl (key (.inl hk)))
          · rcases y2 hv with hk | hk
            · exact .inl hk
            · exact .inr (.inl (key (.inr hk)))
        · rcases ih _ h v hv with hk | hk
          · rcases x1 v (List.mem_filter.1 hk).1 with hk | hk
            · exact .inl hk
            · exact .inr (.inl (key (.inl hk)))
          · exact .inr (.inr hk)
      · cases h

open Rl in
theorem slot_fits (b : Backend) (n : Nat) {k : Nat} (hk : k ∈ photolysisTable.map Prod.fst) :
    FitsRateFile b n (b.slot k) := by
  intro k' hk'
  have : k = k' := Option.some.inj hk'
  subst this
  refine .inl ⟨rfl, ?_⟩
  have h := (by decide +kernel : ∀ k ∈ photolysisTable.map Prod.fst, 1 ≤ k ∧ k ≤ 61) k hk
  unfold Within photolysisArray
  cases b <;> dsimp only <;> omega

open Rl in
theorem scalar_fits {b : Backend} {n : Nat} {v : Var} (h : v.idx = none) : FitsRateFile b n v := by
  intro k hk
  rw [h] at hk
  cases hk

open Rl in
/-- The fixed part of a rate file. -/
theorem rateProgram_fits (b : Backend) (n : Nat) : ∀ v ∈ (rateProgram b).flatMap mentioned, FitsRateFile b n v := by
  intro v hv
  have h := facts_common b
  unfold commonFacts at h
  simp only [Bool.and_eq_true] at h
  have hs := h.1.2
  unfold slotsCheck at hs
  rw [List.all_eq_true] at hs
  rcases mentioned_scoped _ _ h.2 v hv with hk | hk
  · refine scalar_fits ?_
    unfold argumentsOf at hk
    simp only [List.mem_cons, List.not_mem_nil, or_false] at hk
    rcases hk with rfl | rfl | rfl | rfl <;> rfl
  · have hin := inputs_of b
    unfold inputsCheck at hin
    rw [Bool.and_eq_true, List.all_eq_true] at hin
    have h1 := hin.2 _ hk
    have h2 := hs _ hk
    rw [decide_eq_true_eq] at h1 h2
    by_cases hidx : v.idx = none
    · exact scalar_fits hidx
    · have hn := h1.2 hidx
      obtain ⟨k, hk, he⟩ := h2 hn
      have : v = b.slot k := by
        cases v
        dsimp only at he hn
        rw [he, hn]
        rfl
      rw [this]
      exact slot_fits b n hk

open Rl in
theorem steady_fits {b : Backend} {n : Nat} {e : Ex} (h : e.steady b = true) :
    ∀ v ∈ e.vars, FitsRateFile b n v := by
  intro v hv
  unfold Ex.steady at h
  rw [List.all_eq_true] at h
  have := h v hv
  unfold steadyVar at this
  rw [decide_eq_true_eq, List.mem_append] at this
  refine scalar_fits ?_
  rcases this with h | h
  · obtain ⟨s, -, rfl⟩ := List.mem_map.1 h
    rfl
  · simp only [List.mem_cons, List.not_mem_nil, or_false] at h
    rcases h with rfl | rfl | rfl <;> rfl

open Rl in
theorem rateLike_fits {b : Backend} {n : Nat} : ∀ {e : Ex}, e.rateLike b = true →
    ∀ v ∈ e.vars, FitsRateFile b n v := by
  intro e
  induction e with
  | num q => intro _ v hv; simp [Ex.vars] at hv
  | var w =>
    intro h v hv
    rw [Ex.vars, List.mem_singleton] at hv
    subst hv
    rw [Ex.rateLike, Bool.or_eq_true, Bool.or_eq_true, decide_eq_true_eq, decide_eq_true_eq] at h
    rcases h with (h | rfl) | h
    · exact steady_fits (e := .var v) (by rw [Ex.steady, Ex.vars, List.all_cons, h]; rfl) v (by simp [Ex.vars])
    · exact scalar_fits rfl
    · obtain ⟨r, hr, rfl⟩ := List.mem_map.1 h
      exact slot_fits b n (List.mem_map_of_mem hr)
  | neg a ih => exact fun h => ih h
  | add a c iha ihc =>
    intro h v hv
    rw [Ex.rateLike, Bool.and_eq_true] at h
    rw [Ex.vars, List.mem_append] at hv
    exact hv.elim (iha h.1 v) (ihc h.2 v)
  | sub a c iha ihc =>
    intro h v hv
    rw [Ex.rateLike, Bool.and_eq_true] at h
    rw [Ex.vars, List.mem_append] at hv
    exact hv.elim (iha h.1 v) (ihc h.2 v)
  | mul a c iha ihc =>
    intro h v hv
    rw [Ex.rateLike, Bool.and_eq_true] at h
    rw [Ex.vars, List.mem_append] at hv
    exact hv.elim (iha h.1 v) (ihc h.2 v)
  | div a c iha ihc =>
    intro h v hv
    rw [Ex.rateLike, Bool.and_eq_true] at h
    rw [Ex.vars, List.mem_append] at hv
    exact hv.elim (iha h.1 v) (steady_fits h.2 v)
  | pow a c _ _ => exact fun h => steady_fits h
  | call f a _ => exact fun h => steady_fits h
  | ite a c t e _ _ _ _ => exact fun h => steady_fits h

/-! ### C69 -/

theorem extract_fits {text : Str} {m : Mechanism} (h : extractMechanism text = .ok m) :
    Fits m.tables.gen m.tables.species.length m.equations.toNat := by
  obtain ⟨qs, hq, h2, h3⟩ := extract_reads h
  have hi := spInv_build qs
  refine ⟨?_, fun s e he => h3 ▸ loss_key_lt h hq he, fun s e he => h3 ▸ gain_key_lt h hq he⟩
  rintro ⟨s, i⟩ hp
  refine (C01_indices h i).1 ⟨s, ?_⟩
  have hp : (s, i) ∈ m.tables.index := hp
  rw [h2, hi.index_eq] at hp ⊢
  rw [zipIdx_get? _ hi.nodup]
  exact (List.mem_zipIdx_iff_getElem? (x := (s, i))).1 hp

/-- Every routine of the generated gas phase code reads and assigns only elements that its arrays have:
concentrations one per species, rates and reactant products one per reaction, tendencies one per species, the
Jacobian one row and one column per species.  Python counts from 0, Fortran from 1. -/
theorem C69_python {text : Str} {m : Mechanism} (h : extractMechanism text = .ok m) :
    (∀ P, writeReactantsPy m.tables.gen m.equations.toNat = .ok P →
      StaysInside 0 m.tables.species.length m.equations.toNat (Within 0 m.equations.toNat) P) ∧
    StaysInside 0 m.tables.species.length m.equations.toNat (Within 0 m.tables.species.length)
      (writeLossGainPy m.tables.gen) ∧
    ∀ ord P, writeJacobianPy m.tables.gen ord = .ok P →
      StaysInside 0 m.tables.species.length m.equations.toNat
        (fun k => Within 0 m.tables.species.length k.1 ∧ Within 0 m.tables.species.length k.2) P :=
  ⟨fun _ hP => writeReactantsPy_in (extract_fits h) hP, writeLossGainPy_in (extract_fits h),
    fun _ _ hP => writeJacobianPy_in (extract_fits h) hP⟩

theorem C69_fortran {text : Str} {m : Mechanism} (h : extractMechanism text = .ok m) (cores : Option Nat) :
    (∀ P, writeReactantsF m.tables.gen m.equations.toNat cores = .ok P →
      StaysInside 1 m.tables.species.length m.equations.toNat (Within 1 m.equations.toNat) P) ∧
    StaysInside 1 m.tables.species.length m.equations.toNat (Within 1 m.tables.species.length)
      (writeLossGainF m.tables.gen m.tables.species.length cores) ∧
    ∀ ord P, writeJacobianF m.tables.gen ord m.tables.species.length cores = .ok P →
      StaysInside 1 m.tables.species.length m.equations.toNat
        (fun k => Within 1 m.tables.species.length k.1 ∧ Within 1 m.tables.species.length k.2) P :=
  ⟨fun _ hP => writeReactantsF_in (extract_fits h) hP, writeLossGainF_in (extract_fits h) _ _,
    fun _ _ hP => writeJacobianF_in (extract_fits h) hP⟩

open Rl in
/-- The rate file: photolysis rates and rates are elements that exist, whatever branch is taken. -/
theorem C69_rates {text : Str} {m : Mechanism} (h : extractMechanism text = .ok m)
    {qs : List RawEqn} (hq : Reads text m.equations.toNat qs) {b : Backend}
    (cores : Option Nat) {times : Nat} (hread : ReadableRates b ((convertOf b)^[times]) qs) :
    ∃ p, program b (ratesFile b cores ((convertTable (convertOf b))^[times] m.tables.rate)) = some p ∧
      ∀ v ∈ p.flatMap mentioned, FitsRateFile b m.equations.toNat v := by
  obtain ⟨l, h1, h2, h3⟩ := rate_file h hq cores hread
  refine ⟨_, h1, ?_⟩
  intro v hv
  rw [List.flatMap_append, List.mem_append] at hv
  rcases hv with hv | hv
  · exact rateProgram_fits b _ v hv
  · rw [List.flatMap_map, List.mem_flatMap] at hv
    obtain ⟨p, hp, hv⟩ := hv
    rcases List.mem_cons.1 hv with rfl | hv
    · intro k hk
      have hk : (if b = .fortran then p.1 + 1 else p.1) = k := Option.some.inj hk
      refine .inr ⟨rfl, ?_⟩
      have hlt : p.1 ∈ List.range qs.length := h2 ▸ List.mem_map_of_mem hp
      rw [List.mem_range, (extract_tables h hq).2] at hlt
      unfold Within
      split at hk <;> rename_i hb <;> simp only [hb, if_true, if_false] <;> omega
    · exact rateLike_fits (h3 p hp).1 v hv

deriving instance DecidableEq for Line

/-- The routine was written and has the line. -/
def hasLine {κ : Type} [DecidableEq κ] (l : Line κ) : Except PyErr (List (Line κ)) → Bool
  | .ok P => decide (l ∈ P)
  | .error _ => false

/-- The hypotheses hold for a mechanism with five species and two reactions; its routines use the last
element of every array. -/
example : extractMechanism radicalText = .ok ⟨build radicalReactions, 2⟩ ∧
    (build radicalReactions).species.length = 5 ∧
    hasLine (.asg 1 [.fac (.y 3)]) (writeReactantsPy (build radicalReactions).gen 2) = true ∧
    hasLine (.asg 2 [.fac (.y 4)]) (writeReactantsF (build radicalReactions).gen 2 none) = true ∧
    (.asg 4 [.plus, .fac (.r 1)]) ∈ writeLossGainPy (build radicalReactions).gen ∧
    (.asg 5 [.plus, .fac (.r 2)]) ∈ writeLossGainF (build radicalReactions).gen 5 none ∧
    hasLine (.asg (4, 3) [.plus, .fac (.num 1), .mul, .fac (.r 1)])
      (writeJacobianPy (build radicalReactions).gen keepOrder) = true ∧
    hasLine (.asg (5, 4) [.plus, .fac (.num 1), .mul, .fac (.r 2)])
      (writeJacobianF (build radicalReactions).gen keepOrder 5 none) = true :=
  ⟨radical_parses, by decide +kernel, by decide +kernel, by decide +kernel, by decide +kernel,
    by decide +kernel, by decide +kernel, by decide +kernel⟩

open Rl in
example : ReadableRates .fortran ((convertOf .fortran)^[2]) radicalReactions :=
  (rateTextCheck_reads radical_rates.2.1).1

end PyBox

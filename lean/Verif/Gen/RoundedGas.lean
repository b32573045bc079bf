import Verif.Gen.RoundedFile
import Verif.Props.GasText

/-!
# Rounding in the reactant products and tendencies
-/

namespace PyBox

open Rl Spec

theorem nat_place (k : ℕ) : Tk.sym '=' ∉ LawfulPlace.tks k := by
  intro h
  have h : Tk.sym '=' ∈ [Tk.num (k : ℚ)] := h
  cases List.mem_singleton.1 h

/-! ### Products of reactants -/

theorem prodEx_val (lang : Lang) (env : Env) : ∀ (fs : List Fac) (a : Ex), (prodEx a fs).val (env.vals lang) =
    a.val (env.vals lang) * (fs.map (Fac.val (lang.sees env))).prod := by
  intro fs
  induction fs with
  | nil => intro a; simp [prodEx]
  | cons f fs ih =>
    intro a
    show (prodEx (.mul a f.ex) fs).val _ = _
    rw [ih, List.map_cons, List.prod_cons, ← Fac.ex_val lang env f, Ex.val, mul_assoc]

variable {K : Kind → Prop}

theorem yFac_cost {i : ℕ} {s : ℚ} (h : LitCost K s 0) : FacCost K (yFac i s) dbl := by
  unfold yFac
  split
  · exact dbl_nonneg
  · exact ⟨h, le_rfl⟩

theorem yFac_notNum (i : ℕ) (s : ℚ) : ¬ (yFac i s).IsNum := by
  unfold yFac
  split <;> exact id

/-- A product of powers of concentrations with exact exponents. -/
theorem close_powers (lang : Lang) (env : Env) {f : Fac} {fs : List Fac}
    (hf : ∀ g ∈ f :: fs, ∃ i s, g = yFac i s ∧ LitCost K s 0) {x : Ex}
    (hx : parseExpr lang.backend (rhsTks lang.backend (.fac f :: mulToks fs)) = some x) :
    Close K (env.vals lang) x (2 * (f :: fs).length * dbl) |x.val (env.vals lang)| := by
  have hcost : ∀ g ∈ f :: fs, FacCost K g dbl := fun g hg => by
    obtain ⟨i, s, rfl, hs⟩ := hf g hg
    exact yFac_cost hs
  have hall : ∀ l : List Fac, (∀ g ∈ l, FacCost K g dbl) → List.Forall₂ (FacCost K) l (l.map fun _ => dbl) := by
    intro l
    induction l with
    | nil => intro _; exact .nil
    | cons g l ih => intro h; exact .cons (h g (by simp)) (ih fun g hg => h g (List.mem_cons_of_mem _ hg))
  have hsum : (fs.map fun _ => dbl).sum = fs.length * dbl := by simp
  have hv : x.val (env.vals lang) = f.val (lang.sees env) * (fs.map (Fac.val (lang.sees env))).prod := by
    have h := hx
    rw [parse_mulToks] at h
    obtain rfl := Option.some.inj h
    rw [prodEx_val, Fac.ex_val]
  rw [hv]
  refine close_mulToks lang env (c := 2 * (f :: fs).length * dbl) ⟨?_, dbl, fs.map fun _ => dbl, hcost f (by simp),
    hall fs fun g hg => hcost g (List.mem_cons_of_mem _ hg), ?_⟩ hx
  · obtain ⟨i, s, e, -⟩ := hf f (by simp)
    exact .inl (by show ¬ f.IsNum; rw [e]; exact yFac_notNum i s)
  · show dbl + ((fs.map fun _ => dbl).sum + fs.length * dbl) ≤ 2 * ((f :: fs).length : ℕ) * dbl
    rw [hsum, List.length_cons]
    push_cast
    nlinarith [dbl_nonneg]

/-! ### Sums of rates -/

/-- Subscripts of rates, and the number written for a coefficient other than one. -/
def Lang.off : Lang → ℕ
  | .python => 0
  | .fortran => 1

def Lang.coef : Lang → ℚ → ℚ
  | .python => id
  | .fortran => fun s => s + 1

/-- The coefficient that the routine has in place of a recorded one. -/
def Lang.written (lang : Lang) (s : ℚ) : ℚ := if s = 1 then 1 else lang.coef s

def Lang.stoich (lang : Lang) (s : ℚ) : List Fac := if s = 1 then [] else [.num (lang.coef s)]

def Lang.rest (lang : Lang) (neg : Bool) (d : Dict ℕ ℚ) : List Term :=
  d.map fun p => ⟨neg, .r (p.1 + lang.off), lang.stoich p.2⟩

def Lang.losses (lang : Lang) : Dict ℕ ℚ → List Term
  | [] => []
  | p :: d => ⟨true, .num 1, .r (p.1 + lang.off) :: lang.stoich p.2⟩ :: lang.rest true d

/-- The terms of a tendency. -/
def Lang.terms (lang : Lang) (l g : Dict ℕ ℚ) : List Term := lang.losses l ++ lang.rest false g

theorem rhsTks_dropCont (b : Backend) (ts : List Tok) : rhsTks b (dropCont ts) = rhsTks b ts := by
  induction ts with
  | nil => rfl
  | cons t ts ih =>
    unfold dropCont at ih ⊢
    by_cases h : t = .cont
    · subst h
      rw [List.filter_cons_of_neg (by simp), ih]
      rfl
    · rw [List.filter_cons_of_pos (by simpa using h)]
      exact congrArg (t.tks b ++ ·) ih

theorem terms_python (l g : Dict ℕ ℚ) :
    rhsTks .numba (lossToksPy true l ++ gainToksPy g) = rhsTks .numba (sumToks (Lang.python.terms l g)) := by
  rw [lossToksPy_true, gainToksPy_eq, ← sumToks_append]
  congr 3

theorem terms_fortran (l g : Dict ℕ ℚ) (n : ℕ) :
    rhsTks .fortran ((lossToksF true n l).1 ++ gainToksF (lossToksF true n l).2 g) =
      rhsTks .fortran (sumToks (Lang.fortran.terms l g)) := by
  rw [← rhsTks_dropCont, dropCont_append, lossToksF_true, gainToksF_eq, ← sumToks_append]
  congr 3

theorem terms_length (lang : Lang) (l g : Dict ℕ ℚ) : (lang.terms l g).length = l.length + g.length := by
  cases l <;> simp [Lang.terms, Lang.losses, Lang.rest]
  omega

theorem terms_mem {lang : Lang} {l g : Dict ℕ ℚ} {t : Term} (h : t ∈ lang.terms l g) :
    ∃ p ∈ l ++ g, ∃ e, (t.hd = .r e ∧ t.tl = lang.stoich p.2) ∨ (t.hd = .num 1 ∧ t.tl = .r e :: lang.stoich p.2) := by
  rcases List.mem_append.1 h with h | h
  · cases l with
    | nil => cases h
    | cons p l =>
      rcases List.mem_cons.1 h with rfl | h
      · exact ⟨p, by simp, _, .inr ⟨rfl, rfl⟩⟩
      · obtain ⟨p', hp', rfl⟩ := List.mem_map.1 h
        exact ⟨p', by simp [hp'], _, .inl ⟨rfl, rfl⟩⟩
  · obtain ⟨p', hp', rfl⟩ := List.mem_map.1 h
    exact ⟨p', by simp [hp'], _, .inl ⟨rfl, rfl⟩⟩

theorem exact_one : Exact .single 1 := ⟨1, 0, by norm_num [Prec.bits], by norm_num, by norm_num⟩

/-- Each term of a tendency has at most one inexact number and two products. -/
theorem terms_cost {lang : Lang} {l g : Dict ℕ ℚ} {σ : ℝ} (hσ : 0 ≤ σ)
    (h : ∀ p ∈ l ++ g, p.2 ≠ 1 → LitCost K (lang.coef p.2) σ) {t : Term} (ht : t ∈ lang.terms l g) :
    TermCost K t (σ + 2 * dbl) := by
  obtain ⟨p, hp, e, ht⟩ := terms_mem ht
  have hd := dbl_nonneg
  have hs : ∃ cs, List.Forall₂ (FacCost K) (lang.stoich p.2) cs ∧ cs.sum ≤ σ ∧ (lang.stoich p.2).length ≤ 1 := by
    unfold Lang.stoich
    split
    · exact ⟨[], .nil, by simpa using hσ, by simp⟩
    · rename_i hne
      exact ⟨[σ], .cons ⟨hσ, h p hp hne⟩ .nil, by simp, by simp⟩
  obtain ⟨cs, h1, h2, h3⟩ := hs
  have h3 : ((lang.stoich p.2).length : ℝ) ≤ 1 := by exact_mod_cast h3
  rcases ht with ⟨e1, e2⟩ | ⟨e1, e2⟩
  · refine ⟨.inl (by rw [e1]; exact id), 0, cs, by rw [e1]; exact le_rfl, by rw [e2]; exact h1, ?_⟩
    rw [e2]
    nlinarith
  · refine ⟨.inr ⟨_, _, e2, id⟩, 0, 0 :: cs, ?_, by rw [e2]; exact .cons le_rfl h1, ?_⟩
    · rw [e1]
      exact ⟨le_rfl, litCost_exact K exact_one⟩
    · rw [e2, List.sum_cons, List.length_cons]
      push_cast
      nlinarith

theorem sees_r (lang : Lang) (env : Env) (e : ℕ) : (lang.sees env).r (e + lang.off) = env.r e := by
  cases lang <;> rfl

theorem stoich_prod (lang : Lang) (env : Env) (s : ℚ) :
    ((lang.stoich s).map (Fac.val env)).prod = (lang.written s : ℝ) := by
  unfold Lang.stoich Lang.written
  split <;> simp [Fac.val]

/-- The sum of the absolute values of the entries. -/
noncomputable def absSum (lang : Lang) (r : ℕ → ℝ) (d : Dict ℕ ℚ) : ℝ :=
  (d.map fun p => |(lang.written p.2 : ℝ)| * |r p.1|).sum

theorem rest_abs (lang : Lang) (env : Env) (neg : Bool) (d : Dict ℕ ℚ) :
    ((lang.rest neg d).map fun t => |t.val (lang.sees env)|).sum = absSum lang env.r d := by
  unfold Lang.rest absSum
  rw [List.map_map]
  refine congrArg List.sum (List.map_congr_left fun p _ => ?_)
  simp only [Function.comp_apply, Term.val, stoich_prod, Fac.val, sees_r]
  rw [abs_mul]
  cases neg <;> simp [mul_comm]

theorem terms_abs (lang : Lang) (env : Env) (l g : Dict ℕ ℚ) :
    ((lang.terms l g).map fun t => |t.val (lang.sees env)|).sum = absSum lang env.r l + absSum lang env.r g := by
  unfold Lang.terms
  rw [List.map_append, List.sum_append, rest_abs]
  congr 1
  cases l with
  | nil => rfl
  | cons p l =>
    rw [Lang.losses, List.map_cons, List.sum_cons, rest_abs]
    show |Term.val _ _| + _ = |(lang.written p.2 : ℝ)| * |env.r p.1| + absSum lang env.r l
    congr 1
    simp only [Term.val, List.map_cons, List.prod_cons, stoich_prod, Fac.val, sees_r]
    rw [abs_mul, abs_mul]
    simp [mul_comm]

/-- As a sum over all reactions. -/
theorem absSum_eq (lang : Lang) (r : ℕ → ℝ) (d : Dict ℕ ℚ) (n : ℕ) (hnd : d.keys.Nodup) (hlt : ∀ e ∈ d.keys, e < n) :
    absSum lang r d = ∑ e ∈ Finset.range n, |((((d.get? e).map lang.written).getD 0 : ℚ) : ℝ)| * |r e| := by
  have hk : ∀ d : Dict ℕ ℚ, Dict.keys (d.map fun p => (p.1, |lang.written p.2|)) = d.keys := by
    intro d; simp [Dict.keys, Function.comp_def]
  have hg : ∀ (d : Dict ℕ ℚ) e, Dict.get? (d.map fun p => (p.1, |lang.written p.2|)) e =
      (d.get? e).map fun c => |lang.written c| := by
    intro d e
    induction d with
    | nil => rfl
    | cons p d ih =>
      obtain ⟨k, v⟩ := p
      rw [List.map_cons]
      simp only [Dict.get?]
      by_cases h : k = e
      · simp [h]
      · simp [h, ih]
  have h := rateSum_eq ⟨fun _ => 0, fun e => |r e|⟩ (d.map fun p => (p.1, |lang.written p.2|)) n (by rw [hk]; exact hnd)
    (by rw [hk]; exact hlt)
  have e1 : rateSum ⟨fun _ => 0, fun e => |r e|⟩ (d.map fun p => (p.1, |lang.written p.2|)) = absSum lang r d := by
    unfold rateSum absSum
    rw [List.map_map]
    refine congrArg List.sum (List.map_congr_left fun p _ => ?_)
    simp
  rw [e1] at h
  rw [h]
  refine Finset.sum_congr rfl fun e _ => ?_
  rw [hg]
  cases d.get? e <;> simp

/-- The right-hand side of a tendency. -/
theorem close_tendency (lang : Lang) (env : Env) {l g : Dict ℕ ℚ} {σ : ℝ} (hσ : 0 ≤ σ)
    (h : ∀ p ∈ l ++ g, p.2 ≠ 1 → LitCost K (lang.coef p.2) σ) {x : Ex}
    (hx : parseExpr lang.backend (rhsTks lang.backend (sumToks (lang.terms l g))) = some x) :
    Close K (env.vals lang) x (σ + (l.length + g.length + 1 : ℕ) * dbl) (absSum lang env.r l + absSum lang env.r g) := by
  have hlen := terms_length lang l g
  have habs := terms_abs lang env l g
  have hcost := fun t ht => terms_cost (K := K) (lang := lang) (l := l) (g := g) hσ h (t := t) ht
  cases hts : lang.terms l g with
  | nil =>
    rw [hts] at hx
    rw [show rhsTks lang.backend (sumToks []) = [] from rfl, parse_empty] at hx
    cases hx
  | cons t ts =>
    rw [hts] at hx hlen habs hcost
    rw [← habs]
    refine (close_sumToks lang env hcost hx).mono ?_ le_rfl
    rw [List.length_cons] at hlen
    have : ((l.length + g.length + 1 : ℕ) : ℝ) = ts.length + 2 := by rw [← hlen]; push_cast; ring
    rw [this]
    nlinarith [dbl_nonneg]

end PyBox

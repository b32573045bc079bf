import Verif.Gen.Frames
import Verif.Props.Bounds

/-!
# The generators write well formed lines

Every line the generators of `Gen/Model.lean` write is one that the reader of `Gen/Text.lean` understands
(`LineOk`).
-/

namespace PyBox

/-- Tokens that can be written in a language, use the arrays named and numbers of a certain kind. -/
def ToksOk (lang : Lang) (inputs : List Str) (N : ℚ → Prop) (ts : List Tok) : Prop :=
  ∀ t ∈ ts, (lang = .python → t ≠ .cont) ∧ (∀ a ∈ t.arrays, a ∈ inputs) ∧ ∀ q ∈ t.numbers, N q

/-- An operand that uses the arrays named and numbers of a certain kind. -/
def FacOk (inputs : List Str) (N : ℚ → Prop) (f : Fac) : Prop := (∀ a ∈ f.arrays, a ∈ inputs) ∧ ∀ q ∈ f.numbers, N q

/-- The numbers in the tables, and those the writers derive from them, are of a certain kind. -/
structure CoefsOk (g : GenIn) (N : ℚ → Prop) : Prop where
  one : N 1
  loss : ∀ s, ∀ c ∈ (g.loss.getD s []).values, N c ∧ N (c + 1) ∧ (2 < c → N (c - 1))
  gain : ∀ s, ∀ c ∈ (g.gain.getD s []).values, N c ∧ N (c + 1)

theorem CoefsOk.coef {g : GenIn} {N : ℚ → Prop} (h : CoefsOk g N) {s : Str} {e : Nat} {c : ℚ}
    (hc : lossCoef g s e = .ok c) : N c ∧ N (c + 1) ∧ (2 < c → N (c - 1)) :=
  h.loss s c (List.mem_map.2 ⟨(e, c), Dict.mem_of_get?_eq_some (lookup_ok hc), rfl⟩)

/-- A line with good right-hand side and numbers of a certain kind. -/
def LineGood {κ : Type} (lang : Lang) (inputs : List Str) (N : ℚ → Prop) (l : Line κ) : Prop :=
  LineOk lang inputs l ∧ ∀ q ∈ l.numbers, N q

theorem ToksOk.nil {lang : Lang} {inputs : List Str} {N : ℚ → Prop} : ToksOk lang inputs N [] := fun _ h => absurd h (by simp)

theorem ToksOk.append {lang : Lang} {inputs : List Str} {N : ℚ → Prop} {a b : List Tok} (ha : ToksOk lang inputs N a)
    (hb : ToksOk lang inputs N b) : ToksOk lang inputs N (a ++ b) :=
  fun t ht => (List.mem_append.1 ht).elim (ha t) (hb t)

theorem ToksOk.op {lang : Lang} {inputs : List Str} {N : ℚ → Prop} {t : Tok} {b : List Tok} (ht : t.isOp = true)
    (hb : ToksOk lang inputs N b) : ToksOk lang inputs N (t :: b) := by
  intro u hu
  rcases List.mem_cons.1 hu with rfl | h
  · have hu : u.arrays = [] ∧ u.numbers = [] := by
      cases u with
      | fac f => exact absurd ht (by simp [Tok.isOp])
      | _ => exact ⟨rfl, rfl⟩
    exact ⟨fun _ h => (by subst h; exact absurd ht (by decide)), (fun a ha => by rw [hu.1] at ha; simp at ha),
      fun a ha => by rw [hu.2] at ha; simp at ha⟩
  · exact hb u h

theorem ToksOk.fac {lang : Lang} {inputs : List Str} {N : ℚ → Prop} {f : Fac} {b : List Tok} (hf : FacOk inputs N f)
    (hb : ToksOk lang inputs N b) : ToksOk lang inputs N (.fac f :: b) := by
  intro u hu
  rcases List.mem_cons.1 hu with rfl | h
  · exact ⟨fun _ => by simp, hf⟩
  · exact hb u h

/-- Starts with a sign, if at all. -/
def Led (ts : List Tok) : Prop := ∀ t ∈ ts.head?, t = .plus ∨ t = .minus

theorem Led.nil : Led [] := by intro t ht; simp at ht

theorem Led.cons {t : Tok} {ts : List Tok} (h : t = .plus ∨ t = .minus) : Led (t :: ts) := by
  intro u hu; cases hu; exact h

theorem Led.append {a b : List Tok} (ha : Led a) (hb : a = [] → Led b) : Led (a ++ b) := by
  cases a with
  | nil => exact hb rfl
  | cons t a => exact .cons (ha t rfl)

theorem RhsShape.of_led {ts : List Tok} (h : TailShape ts) (hl : Led ts) : RhsShape ts := by
  cases h with
  | nil => exact .nil
  | op ho h => exact .sign (hl _ rfl) h
  | cont ho h => rcases hl _ rfl with h | h <;> cases h

theorem lineGood_asg {κ : Type} {lang : Lang} {inputs : List Str} {N : ℚ → Prop} {k : κ} {ts : List Tok}
    (h : RhsShape ts) (ht : ToksOk lang inputs N ts) : LineGood lang inputs N (.asg k ts) := by
  refine ⟨⟨h, fun hl hc => (ht _ hc).1 hl rfl, ?_⟩, ?_⟩
  · intro a ha
    obtain ⟨t, ht', ha⟩ := List.mem_flatMap.1 ha
    exact (ht t ht').2.1 a ha
  · intro q hq
    obtain ⟨t, ht', hq⟩ := List.mem_flatMap.1 hq
    exact (ht t ht').2.2 q hq

theorem lineGood_blank {κ : Type} {lang : Lang} {inputs : List Str} {N : ℚ → Prop} :
    LineGood lang inputs N (.blank : Line κ) := ⟨trivial, by simp [Line.numbers]⟩

theorem yFac_ok {i : Nat} {s : ℚ} {inputs : List Str} {N : ℚ → Prop} (h : ['y'] ∈ inputs) (hN : N s) :
    FacOk inputs N (yFac i s) := by
  unfold yFac
  split
  · exact ⟨by simpa [Fac.arrays] using h, by simp [Fac.numbers]⟩
  · exact ⟨by simpa [Fac.arrays] using h, by simpa [Fac.numbers] using hN⟩

theorem y_ok {i : Nat} {inputs : List Str} {N : ℚ → Prop} (h : ['y'] ∈ inputs) : FacOk inputs N (.y i) :=
  ⟨by simpa [Fac.arrays] using h, by simp [Fac.numbers]⟩

theorem ypow_ok {i : Nat} {s : ℚ} {inputs : List Str} {N : ℚ → Prop} (h : ['y'] ∈ inputs) (hN : N s) :
    FacOk inputs N (.ypow i s) := ⟨by simpa [Fac.arrays] using h, by simpa [Fac.numbers] using hN⟩

theorem r_ok {i : Nat} {inputs : List Str} {N : ℚ → Prop} (h : ['r'] ∈ inputs) : FacOk inputs N (.r i) :=
  ⟨by simpa [Fac.arrays] using h, by simp [Fac.numbers]⟩

theorem num_ok {q : ℚ} {inputs : List Str} {N : ℚ → Prop} (hN : N q) : FacOk inputs N (.num q) :=
  ⟨by simp [Fac.arrays], by simpa [Fac.numbers] using hN⟩

theorem withOmp_lines {κ : Type} {inputs : List Str} {N : ℚ → Prop} {breaks : Option (List Nat)}
    {groups : List (List (Line κ))} (h : ∀ g ∈ groups, ∀ l ∈ g, LineGood .fortran inputs N l) :
    ∀ l ∈ withOmp breaks groups, LineGood .fortran inputs N l := by
  intro l hl
  cases l with
  | blank => exact lineGood_blank
  | omp d => exact ⟨rfl, by simp [Line.numbers]⟩
  | asg k ts =>
    obtain ⟨g, hg, hk⟩ := withOmp_asg hl
    exact h g hg _ hk

/-! ### Reactant products -/

theorem reactantStep_shape {g : GenIn} {N : ℚ → Prop} (hN : CoefsOk g N) {e : Nat} {st st' : Option (List Tok)}
    {name : Str} {lang : Lang}
    (hst : ∀ ts, st = some ts → RhsShape ts ∧ ts ≠ [] ∧ ToksOk lang [['y']] N ts)
    (hs : reactantStepPy g e st name = .ok st' ∨ reactantStepF g e st name = .ok st') :
    ∀ ts, st' = some ts → RhsShape ts ∧ ts ≠ [] ∧ ToksOk lang [['y']] N ts := by
  rcases hs with hs | hs
  all_goals
    first | unfold reactantStepPy at hs | unfold reactantStepF at hs
    split at hs
    · cases hs; exact hst
    · obtain ⟨c, hc, hs⟩ := bind_ok hs
      obtain ⟨i, -, hs⟩ := bind_ok hs
      have hc := (hN.coef hc).1
      cases st with
      | none =>
        cases hs
        intro ts hts
        cases hts
        exact ⟨.fac .nil, by simp, .fac (yFac_ok (by simp) hc) .nil⟩
      | some ts0 =>
        cases hs
        intro ts hts
        cases hts
        obtain ⟨h1, h2, h3⟩ := hst _ rfl
        exact ⟨h1.append h2 (.op rfl .nil), by simp, h3.append (.op rfl (.fac (yFac_ok (by simp) hc) .nil))⟩

theorem lineGood_toLine {κ : Type} {lang : Lang} {inputs : List Str} {N : ℚ → Prop} {k : κ} {o : Option (List Tok)}
    (h : ∀ ts, o = some ts → RhsShape ts ∧ ts ≠ [] ∧ ToksOk lang inputs N ts) :
    LineGood lang inputs N (toLine k o) := by
  cases o with
  | none => exact lineGood_blank
  | some ts => exact lineGood_asg (h ts rfl).1 (h ts rfl).2.2

theorem writeReactantsPy_lines {g : GenIn} {N : ℚ → Prop} (hN : CoefsOk g N) {q : Nat} {P : List (Line Nat)}
    (hP : writeReactantsPy g q = .ok P) : ∀ l ∈ P, LineGood .python [['y']] N l := by
  intro l hl
  obtain ⟨e, he, h1⟩ := mapM_mem _ _ hP _ hl
  obtain ⟨o, ho, h1⟩ := bind_ok h1
  rw [← Except.ok.inj h1]
  exact lineGood_toLine (foldlM_inv (P := fun st => ∀ ts, st = some ts → RhsShape ts ∧ ts ≠ [] ∧
    ToksOk .python [['y']] N ts) _ (fun b a b' _ hb hs => reactantStep_shape hN hb (.inl hs)) _ _ (by simp) ho)

theorem writeReactantsF_lines {g : GenIn} {N : ℚ → Prop} (hN : CoefsOk g N) {q : Nat} {cores : Option Nat}
    {P : List (Line Nat)} (hP : writeReactantsF g q cores = .ok P) : ∀ l ∈ P, LineGood .fortran [['y']] N l := by
  obtain ⟨ls, hls, hP⟩ := bind_ok hP
  cases hP
  apply withOmp_lines
  intro grp hg l hl
  obtain ⟨e, he, h1⟩ := mapM_mem _ _ hls _ hg
  obtain ⟨o, ho, h1⟩ := bind_ok h1
  have h1 : [toLine (e + 1) o] = grp := Except.ok.inj h1
  subst h1
  rw [List.mem_singleton.1 hl]
  exact lineGood_toLine (foldlM_inv (P := fun st => ∀ ts, st = some ts → RhsShape ts ∧ ts ≠ [] ∧
    ToksOk .fortran [['y']] N ts) _ (fun b a b' _ hb hs => reactantStep_shape hN hb (.inr hs)) _ _ (by simp) ho)

/-! ### Loss and gain -/

theorem timesStoich_shape {lang : Lang} {inputs : List Str} {N : ℚ → Prop} {s : ℚ} (hs : N s) :
    TailShape (timesStoich s) ∧ ToksOk lang inputs N (timesStoich s) := by
  unfold timesStoich
  split
  · exact ⟨.nil, .nil⟩
  · exact ⟨.op rfl .nil, .op rfl (.fac (num_ok hs) .nil)⟩

theorem lossToksPy_shape {N : ℚ → Prop} (h1 : N 1) : ∀ (d : Dict Nat ℚ) (first : Bool), (∀ c ∈ d.values, N c) →
    TailShape (lossToksPy first d) ∧ Led (lossToksPy first d) ∧ ToksOk .python [['r']] N (lossToksPy first d) := by
  intro d
  induction d with
  | nil => intro first _; simp only [lossToksPy]; exact ⟨.nil, .nil, .nil⟩
  | cons p d ih =>
    intro first hd
    obtain ⟨e, s⟩ := p
    obtain ⟨a1, -, a3⟩ := ih false (fun c hc => hd c (by simp [Dict.values] at hc ⊢; exact .inr hc))
    obtain ⟨t1, t2⟩ := timesStoich_shape (lang := .python) (inputs := [['r']]) (hd s (by simp [Dict.values]))
    cases first
    · exact ⟨.op rfl (t1.append a1), .cons (.inr rfl), .op rfl (.fac (r_ok (by simp)) (t2.append a3))⟩
    · exact ⟨.op rfl (.op rfl (t1.append a1)), .cons (.inr rfl),
        .op rfl (.fac (num_ok h1) (.op rfl (.fac (r_ok (by simp)) (t2.append a3))))⟩

theorem gainToksPy_shape {N : ℚ → Prop} : ∀ (d : Dict Nat ℚ), (∀ c ∈ d.values, N c) → TailShape (gainToksPy d) ∧
    Led (gainToksPy d) ∧ ToksOk .python [['r']] N (gainToksPy d) := by
  intro d
  induction d with
  | nil => intro _; simp only [gainToksPy]; exact ⟨.nil, .nil, .nil⟩
  | cons p d ih =>
    intro hd
    obtain ⟨e, s⟩ := p
    obtain ⟨a1, -, a3⟩ := ih (fun c hc => hd c (by simp [Dict.values] at hc ⊢; exact .inr hc))
    obtain ⟨t1, t2⟩ := timesStoich_shape (lang := .python) (inputs := [['r']]) (hd s (by simp [Dict.values]))
    exact ⟨.op rfl (t1.append a1), .cons (.inl rfl), .op rfl (.fac (r_ok (by simp)) (t2.append a3))⟩

theorem writeLossGainPy_lines {g : GenIn} {N : ℚ → Prop} (hN : CoefsOk g N) :
    ∀ l ∈ writeLossGainPy g, LineGood .python [['r']] N l := by
  intro l hl
  obtain ⟨p, -, rfl⟩ := List.mem_map.1 hl
  obtain ⟨-, -, h3, h4, -⟩ := touchAll_spec g
  unfold tendencyLinePy
  split
  · exact lineGood_blank
  · split
    · rw [h3, h4]
      obtain ⟨a1, a2, a3⟩ := lossToksPy_shape hN.one (g.loss.getD p.1 []) true (fun c hc => (hN.loss _ c hc).1)
      obtain ⟨b1, b2, b3⟩ := gainToksPy_shape (g.gain.getD p.1 []) (fun c hc => (hN.gain _ c hc).1)
      exact lineGood_asg (.of_led (a1.append b1) (a2.append fun _ => b2)) (a3.append b3)
    · exact lineGood_blank

theorem toksOk_contBefore {inputs : List Str} {N : ℚ → Prop} (limit flag : Nat) :
    ToksOk .fortran inputs N (contBefore limit flag).1 := by
  intro t ht
  unfold contBefore at ht
  split at ht
  · rw [List.mem_singleton.1 ht]
    exact ⟨(fun h => by cases h), by simp [Tok.arrays], by simp [Tok.numbers]⟩
  · simp at ht

/-- A continuation may stand before a sum that starts with a sign. -/
theorem contBefore_shape {limit flag : Nat} {o : Tok} {f : Fac} {ts : List Tok} (ho : o = .plus ∨ o = .minus)
    (h : TailShape ts) : TailShape ((contBefore limit flag).1 ++ o :: .fac f :: ts) ∧
      (flag ≤ limit → Led ((contBefore limit flag).1 ++ o :: .fac f :: ts)) := by
  have ho' : o.isOp = true := by rcases ho with rfl | rfl <;> rfl
  unfold contBefore
  split
  · exact ⟨.cont ho' h, fun hf => by omega⟩
  · exact ⟨.op ho' h, fun _ => .cons ho⟩

theorem stoichF_shape {lang : Lang} {inputs : List Str} {N : ℚ → Prop} {s : ℚ} (hs : N (s + 1)) :
    TailShape (if s = 1 then [] else [Tok.mul, .fac (.num (s + 1))]) ∧
      ToksOk lang inputs N (if s = 1 then [] else [Tok.mul, .fac (.num (s + 1))]) := by
  split
  · exact ⟨.nil, .nil⟩
  · exact ⟨.op rfl .nil, .op rfl (.fac (num_ok hs) .nil)⟩

theorem lossToksF_shape {N : ℚ → Prop} (h1 : N 1) : ∀ (d : Dict Nat ℚ) (first : Bool) (flag : Nat),
    (∀ c ∈ d.values, N (c + 1)) →
    TailShape (lossToksF first flag d).1 ∧ (flag ≤ 4 → Led (lossToksF first flag d).1) ∧
      ((lossToksF first flag d).1 = [] → (lossToksF first flag d).2 = flag) ∧
      ToksOk .fortran [['r']] N (lossToksF first flag d).1 := by
  intro d
  induction d with
  | nil => intro first flag _; exact ⟨.nil, fun _ => .nil, fun _ => rfl, .nil⟩
  | cons p d ih =>
    intro first flag hd
    obtain ⟨e, s⟩ := p
    obtain ⟨a1, -, -, a3⟩ := ih false ((contBefore 4 flag).2 + 1)
      (fun c hc => hd c (by simp [Dict.values] at hc ⊢; exact .inr hc))
    obtain ⟨t1, t2⟩ := stoichF_shape (lang := .fortran) (inputs := [['r']]) (hd s (by simp [Dict.values]))
    have hc := toksOk_contBefore (inputs := [['r']]) (N := N) 4 flag
    cases first
    · obtain ⟨c1, c2⟩ := contBefore_shape (limit := 4) (flag := flag) (o := .minus) (f := .r (e + 1)) (.inr rfl)
        (t1.append a1)
      have heq : (lossToksF false flag ((e, s) :: d)).1 = (contBefore 4 flag).1 ++ Tok.minus :: .fac (.r (e + 1)) ::
          ((if s = 1 then [] else [Tok.mul, .fac (.num (s + 1))]) ++
            (lossToksF false ((contBefore 4 flag).2 + 1) d).1) := by
        simp [lossToksF]
      rw [heq]
      exact ⟨c1, c2, fun h => by simp at h, hc.append (.op rfl (.fac (r_ok (by simp)) (t2.append a3)))⟩
    · obtain ⟨c1, c2⟩ := contBefore_shape (limit := 4) (flag := flag) (o := .minus) (f := .num 1) (.inr rfl)
        (.op (o := .mul) (f := .r (e + 1)) rfl (t1.append a1))
      have heq : (lossToksF true flag ((e, s) :: d)).1 = (contBefore 4 flag).1 ++ Tok.minus :: .fac (.num 1) ::
          .mul :: .fac (.r (e + 1)) :: ((if s = 1 then [] else [Tok.mul, .fac (.num (s + 1))]) ++
            (lossToksF false ((contBefore 4 flag).2 + 1) d).1) := by
        simp [lossToksF]
      rw [heq]
      exact ⟨c1, c2, fun h => by simp at h, hc.append (.op rfl (.fac (num_ok h1)
        (.op rfl (.fac (r_ok (by simp)) (t2.append a3)))))⟩

theorem gainToksF_shape {N : ℚ → Prop} : ∀ (d : Dict Nat ℚ) (flag : Nat), (∀ c ∈ d.values, N (c + 1)) →
    TailShape (gainToksF flag d) ∧ (flag ≤ 4 → Led (gainToksF flag d)) ∧
      ToksOk .fortran [['r']] N (gainToksF flag d) := by
  intro d
  induction d with
  | nil => intro flag _; simp only [gainToksF]; exact ⟨.nil, fun _ => .nil, .nil⟩
  | cons p d ih =>
    intro flag hd
    obtain ⟨e, s⟩ := p
    obtain ⟨a1, -, a3⟩ := ih ((contBefore 4 flag).2 + 1)
      (fun c hc => hd c (by simp [Dict.values] at hc ⊢; exact .inr hc))
    obtain ⟨t1, t2⟩ := stoichF_shape (lang := .fortran) (inputs := [['r']]) (hd s (by simp [Dict.values]))
    have hc := toksOk_contBefore (inputs := [['r']]) (N := N) 4 flag
    obtain ⟨c1, c2⟩ := contBefore_shape (limit := 4) (flag := flag) (o := .plus) (f := .r (e + 1)) (.inl rfl)
      (t1.append a1)
    have heq : gainToksF flag ((e, s) :: d) = (contBefore 4 flag).1 ++ Tok.plus :: .fac (.r (e + 1)) ::
        ((if s = 1 then [] else [Tok.mul, .fac (.num (s + 1))]) ++
          gainToksF ((contBefore 4 flag).2 + 1) d) := by
      simp [gainToksF]
    rw [heq]
    exact ⟨c1, c2, hc.append (.op rfl (.fac (r_ok (by simp)) (t2.append a3)))⟩

theorem writeLossGainF_lines {g : GenIn} {N : ℚ → Prop} (hN : CoefsOk g N) (n : Nat) (cores : Option Nat) :
    ∀ l ∈ writeLossGainF g n cores, LineGood .fortran [['r']] N l := by
  apply withOmp_lines
  intro grp hg l hl
  obtain ⟨p, -, rfl⟩ := List.mem_map.1 hg
  rw [List.mem_singleton.1 hl]
  unfold tendencyLineF
  split
  · exact lineGood_blank
  · split
    · dsimp only
      have hl : ∃ l : List Tok × Nat, (if p.1 ∈ g.loss.keys then lossToksF true 0 (g.loss.getD p.1 []) else ([], 0)) = l ∧
          TailShape l.1 ∧ Led l.1 ∧ (l.1 = [] → l.2 = 0) ∧ ToksOk .fortran [['r']] N l.1 := by
        split
        · obtain ⟨h1, h2, h3, h4⟩ := lossToksF_shape hN.one (g.loss.getD p.1 []) true 0
            (fun c hc => (hN.loss _ c hc).2.1)
          exact ⟨_, rfl, h1, h2 (by omega), h3, h4⟩
        · exact ⟨_, rfl, .nil, .nil, fun _ => rfl, .nil⟩
      obtain ⟨l, hl, h1, h2, h3, h4⟩ := hl
      rw [hl]
      split
      · obtain ⟨k1, k2, k3⟩ := gainToksF_shape (g.gain.getD p.1 []) l.2 (fun c hc => (hN.gain _ c hc).2)
        exact lineGood_asg (.of_led (h1.append k1) (h2.append fun h => k2 (by rw [h3 h]; omega))) (h4.append k3)
      · rw [List.append_nil]
        exact lineGood_asg (.of_led h1 h2) h4
    · exact lineGood_blank

/-! ### Jacobian -/

/-- A product after a sign. -/
def SignedTerm (lang : Lang) (N : ℚ → Prop) (ts : List Tok) : Prop :=
  TailShape ts ∧ Led ts ∧ ts ≠ [] ∧ ToksOk lang [['r'], ['y']] N ts

theorem SignedTerm.start {lang : Lang} {N : ℚ → Prop} {o : Tok} (ho : o = .plus ∨ o = .minus) {q : ℚ} (hq : N q)
    {f : Fac} (hf : FacOk [['r'], ['y']] N f) : SignedTerm lang N [o, .fac (.num q), .mul, .fac f] := by
  have ho' : o.isOp = true := by rcases ho with rfl | rfl <;> rfl
  exact ⟨.op ho' (.op rfl .nil), .cons ho, by simp, .op ho' (.fac (num_ok hq) (.op rfl (.fac hf .nil)))⟩

theorem SignedTerm.append {lang : Lang} {N : ℚ → Prop} {a b : List Tok} (ha : SignedTerm lang N a) (hb : TailShape b)
    (hb' : ToksOk lang [['r'], ['y']] N b) : SignedTerm lang N (a ++ b) :=
  ⟨ha.1.append hb, ha.2.1.append fun h => absurd h ha.2.2.1, by simp [ha.2.2.1], ha.2.2.2.append hb'⟩

theorem jacFactor_shape {lang : Lang} {g : GenIn} {N : ℚ → Prop} (hN : CoefsOk g N) {off : Nat} {sign : Tok}
    (hsign : sign = .plus ∨ sign = .minus) {x r2 : Str} {e : Nat} {sf : ℚ} (hsf : N sf ∧ (2 < sf → N (sf - 1)))
    {st st' : Option (List Tok)} (hst : ∀ ts, st = some ts → SignedTerm lang N ts)
    (hs : jacFactor g off sign x e sf st r2 = .ok st') : ∀ ts, st' = some ts → SignedTerm lang N ts := by
  unfold jacFactor at hs
  split at hs
  · cases hs; exact hst
  split at hs
  · split at hs
    · cases hs; exact hst
    obtain ⟨i, -, hs⟩ := bind_ok hs
    split at hs
    · cases st with
      | none =>
        cases hs; intro ts hts; cases hts
        exact .start hsign hsf.1 (y_ok (by simp))
      | some ts0 =>
        cases hs; intro ts hts; cases hts
        exact (hst _ rfl).append (.op rfl (.op rfl .nil))
          (.op rfl (.fac (num_ok hsf.1) (.op rfl (.fac (y_ok (by simp)) .nil))))
    · split at hs
      · rename_i h2
        cases st with
        | none =>
          cases hs; intro ts hts; cases hts
          exact .start hsign hsf.1 (ypow_ok (by simp) (hsf.2 h2))
        | some ts0 =>
          cases hs; intro ts hts; cases hts
          exact (hst _ rfl).append (.op rfl (.op rfl .nil))
            (.op rfl (.fac (num_ok hsf.1) (.op rfl (.fac (ypow_ok (by simp) (hsf.2 h2)) .nil))))
      · cases hs; exact hst
  · obtain ⟨c, hc, hs⟩ := bind_ok hs
    obtain ⟨i, -, hs⟩ := bind_ok hs
    have hc := (hN.coef hc).1
    cases st with
    | none =>
      cases hs; intro ts hts; cases hts
      exact .start hsign hN.one (yFac_ok (by simp) hc)
    | some ts0 =>
      cases hs; intro ts hts; cases hts
      exact (hst _ rfl).append (.op rfl .nil) (.op rfl (.fac (yFac_ok (by simp) hc) .nil))

theorem jacTerm_shape {lang : Lang} {g : GenIn} {N : ℚ → Prop} (hN : CoefsOk g N) {ord : SetOrder} {off : Nat}
    {sign : Tok} (hsign : sign = .plus ∨ sign = .minus) {x : Str} {e : Nat} {ts : List Tok}
    (ht : jacTerm g ord off sign x e = .ok ts) : SignedTerm lang N ts := by
  unfold jacTerm at ht
  obtain ⟨sf, hsf, ht⟩ := bind_ok ht
  obtain ⟨st, hst, ht⟩ := bind_ok ht
  have hsf := hN.coef hsf
  have hin := foldlM_inv (P := fun st => ∀ ts, st = some ts → SignedTerm lang N ts) _
    (fun b a b' _ hb hs => jacFactor_shape hN hsign ⟨hsf.1, hsf.2.2⟩ hb hs) _ _ (by simp) hst
  cases st with
  | none =>
    cases ht
    exact .start hsign hN.one (r_ok (by simp))
  | some ts0 =>
    cases ht
    exact (hin _ rfl).append (.op rfl .nil) (.op rfl (.fac (r_ok (by simp)) .nil))

theorem jacTermsPy_shape {g : GenIn} {N : ℚ → Prop} (hN : CoefsOk g N) {ord : SetOrder} {sign : Tok}
    (hsign : sign = .plus ∨ sign = .minus) {x : Str} : ∀ (es : List Nat) ts, jacTermsPy g ord sign x es = .ok ts →
      TailShape ts ∧ Led ts ∧ ToksOk .python [['r'], ['y']] N ts := by
  intro es
  induction es with
  | nil => intro ts ht; simp only [jacTermsPy] at ht; cases ht; exact ⟨.nil, .nil, .nil⟩
  | cons e es ih =>
    intro ts ht
    simp only [jacTermsPy] at ht
    split at ht
    · obtain ⟨t, h1, ht⟩ := bind_ok ht
      obtain ⟨r, h2, ht⟩ := bind_ok ht
      cases ht
      obtain ⟨a1, a2, a3, a4⟩ := jacTerm_shape (lang := .python) hN hsign h1
      obtain ⟨b1, b2, b3⟩ := ih _ h2
      exact ⟨a1.append b1, a2.append fun _ => b2, a4.append b3⟩
    · exact ih _ ht

theorem jacTermsF_shape {g : GenIn} {N : ℚ → Prop} (hN : CoefsOk g N) {ord : SetOrder} {sign : Tok}
    (hsign : sign = .plus ∨ sign = .minus) {x : Str} :
    ∀ (es : List Nat) (flag : Nat) ts, jacTermsF g ord sign x flag es = .ok ts →
      TailShape ts.1 ∧ (flag ≤ 3 → Led ts.1) ∧ (ts.1 = [] → ts.2 = flag) ∧ ToksOk .fortran [['r'], ['y']] N ts.1 := by
  intro es
  induction es with
  | nil =>
    intro flag ts ht
    simp only [jacTermsF] at ht
    cases ht
    exact ⟨.nil, fun _ => .nil, fun _ => rfl, .nil⟩
  | cons e es ih =>
    intro flag ts ht
    simp only [jacTermsF] at ht
    split at ht
    · obtain ⟨t, h1, ht⟩ := bind_ok ht
      obtain ⟨r, h2, ht⟩ := bind_ok ht
      cases ht
      obtain ⟨a1, a2, a3, a4⟩ := jacTerm_shape (lang := .fortran) hN hsign h1
      obtain ⟨b1, b2, -, b3⟩ := ih _ _ h2
      cases a1 with
      | nil => exact absurd rfl a3
      | cont _ _ => rcases a2 _ rfl with h | h <;> cases h
      | @op o f us ho hu =>
        obtain ⟨c1, c2⟩ := contBefore_shape (limit := 3) (flag := flag) (f := f) (a2 _ rfl) (hu.append b1)
        have heq : ∀ a b : List Tok, a ++ (o :: .fac f :: us) ++ b = a ++ o :: .fac f :: (us ++ b) := by simp
        dsimp only
        rw [heq]
        refine ⟨c1, c2, fun h => by simp at h, ?_⟩
        have := (toksOk_contBefore 3 flag).append (a4.append b3)
        exact this
    · exact ih _ _ ht

theorem writeJacobianPy_lines {g : GenIn} {N : ℚ → Prop} (hN : CoefsOk g N) {ord : SetOrder}
    {P : List (Line (Nat × Nat))} (hP : writeJacobianPy g ord = .ok P) :
    ∀ l ∈ P, LineGood .python [['r'], ['y']] N l := by
  intro l hl
  obtain ⟨ls, hls, hP⟩ := bind_ok hP
  cases hP
  obtain ⟨grp, hg, hl⟩ := List.mem_flatten.1 hl
  obtain ⟨p, -, h1⟩ := mapM_mem _ _ hls _ hg
  unfold jacLinesPy at h1
  split at h1
  · cases h1; simp at hl
  obtain ⟨x, -, h1⟩ := mapM_mem _ _ h1 _ hl
  obtain ⟨j, -, h1⟩ := bind_ok h1
  obtain ⟨u, hu, h1⟩ := bind_ok h1
  obtain ⟨k, hk, h1⟩ := bind_ok h1
  cases h1
  obtain ⟨a1, a2, a3⟩ := jacTermsPy_shape hN (.inr rfl) _ _ hu
  obtain ⟨b1, b2, b3⟩ := jacTermsPy_shape hN (.inl rfl) _ _ hk
  exact lineGood_asg (.of_led (a1.append b1) (a2.append fun _ => b2)) (a3.append b3)

theorem writeJacobianF_lines {g : GenIn} {N : ℚ → Prop} (hN : CoefsOk g N) {ord : SetOrder} {n : Nat}
    {cores : Option Nat} {P : List (Line (Nat × Nat))} (hP : writeJacobianF g ord n cores = .ok P) :
    ∀ l ∈ P, LineGood .fortran [['r'], ['y']] N l := by
  obtain ⟨ls, hls, hP⟩ := bind_ok hP
  cases hP
  apply withOmp_lines
  intro grp hg l hl
  obtain ⟨p, -, h1⟩ := mapM_mem _ _ hls _ hg
  unfold jacLinesF at h1
  split at h1
  · cases h1; simp at hl
  obtain ⟨x, -, h1⟩ := mapM_mem _ _ h1 _ hl
  obtain ⟨j, -, h1⟩ := bind_ok h1
  obtain ⟨u, hu, h1⟩ := bind_ok h1
  obtain ⟨k, hk, h1⟩ := bind_ok h1
  cases h1
  obtain ⟨a1, a2, a3, a4⟩ := jacTermsF_shape hN (.inr rfl) _ _ _ hu
  obtain ⟨b1, b2, -, b3⟩ := jacTermsF_shape hN (.inl rfl) _ _ _ hk
  exact lineGood_asg (.of_led (a1.append b1) ((a2 (by omega)).append fun h => b2 (by rw [a3 h]; omega))) (a4.append b3)

end PyBox

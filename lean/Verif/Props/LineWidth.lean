import Mathlib.Data.List.Permutation
import Verif.Gen.Width
import Verif.Props.GasFiles
import Verif.Props.PartitionText

/-!
# C74: the lines of the generated Fortran files
-/

namespace PyBox

open Spec

/-! ### A file -/

theorem file_lines {κ : Type} [Place κ] {L : Layout} {n : ℕ} {num : ℚ → Str} {date : Str} {s r : ℕ}
    {p : List (Line κ)} (htop : ∀ x ∈ L.top, Step n 0 x 0) (hdate : Step n 0 (createdAt L.lang date) 0)
    (hhead : ∀ x ∈ L.head (digits s) (digits r), Step n 0 x 0) (hp : ∀ l ∈ p, Step n 0 (Line.text L num l) 0)
    (hfoot : ∀ x ∈ L.foot, Step n 0 x 0) : LinesWithin n (fileText L num date s r p) := by
  rw [linesWithin_iff]
  refine (Step.append0 (Step.append0 (Step.append0 (Step.append0 (Step.flatten htop) hdate) (Step.flatten hhead))
    (Step.flatten ?_)) (Step.flatten hfoot)).1
  intro x hx
  obtain ⟨l, hl, rfl⟩ := List.mem_map.1 hx
  exact hp l hl

theorem createdAt_step {date : Str} (hd : '\n' ∉ date) (hl : date.length ≤ 100) :
    Step 132 0 (createdAt .fortran date) 0 := by
  have e : createdAt .fortran date = ("! File created at ".toList ++ date ++ [' ']) ++ ['\n'] := by
    show "! File created at ".toList ++ date ++ " \n".toList = _
    rw [show " \n".toList = [' '] ++ ['\n'] from by decide +kernel, List.append_assoc, List.append_assoc,
      List.append_assoc]
  have h18 : "! File created at ".toList.length = 18 := by decide +kernel
  rw [e]
  refine Step.ends ?_ ?_
  · simp only [List.mem_append, not_or]
    exact ⟨⟨by decide +kernel, hd⟩, by decide⟩
  · simp only [List.length_append, h18, List.length_cons, List.length_nil]
    omega

/-- Fixed text with a number in it. -/
theorem Step.around {n : ℕ} {a s b : Str} {d : ℕ} (ha : '\n' ∉ a) (hs : '\n' ∉ s) (hb : '\n' ∉ b) (hd : s.length ≤ d)
    (h : a.length + d + b.length ≤ n) : Step n 0 (a ++ s ++ (b ++ ['\n'])) 0 := by
  rw [← List.append_assoc]
  refine Step.ends ?_ ?_
  · simp only [List.mem_append, not_or]
    exact ⟨⟨ha, hs⟩, hb⟩
  · simp only [List.length_append]
    omega

theorem reactantsFHead_step {s r : Str} (hs : '\n' ∉ s) (hr : '\n' ∉ r) (hls : s.length ≤ 20) (hlr : r.length ≤ 20) :
    ∀ x ∈ Rl.reactantsFHead s r, Step 132 0 x 0 := by
  unfold Rl.reactantsFHead
  simp only [List.forall_mem_cons, List.not_mem_nil, false_imp_iff, implies_true, and_true]
  refine ⟨by decide +kernel, by decide +kernel, by decide +kernel, by decide +kernel,
    Step.around (b := [')', ' ', ':', ':', ' ', 'y', ' ']) (by decide +kernel) hs (by decide +kernel) hls
      (by decide +kernel), by decide +kernel,
    Step.around (b := chars% ") :: reactants_conc ") (by decide +kernel) hr (by decide +kernel) hlr
      (by decide +kernel), by decide +kernel⟩

theorem lossGainFHead_step {s r : Str} (hs : '\n' ∉ s) (hr : '\n' ∉ r) (hls : s.length ≤ 20) (hlr : r.length ≤ 20) :
    ∀ x ∈ Rl.lossGainFHead s r, Step 132 0 x 0 := by
  unfold Rl.lossGainFHead
  simp only [List.forall_mem_cons, List.not_mem_nil, false_imp_iff, implies_true, and_true]
  refine ⟨by decide +kernel, by decide +kernel, by decide +kernel, by decide +kernel, by decide +kernel,
    Step.around (b := chars% ") :: r ") (by decide +kernel) hr (by decide +kernel) hlr
      (by decide +kernel), by decide +kernel,
    Step.around (b := chars% ") :: loss_gain_array ") (by decide +kernel) hs (by decide +kernel) hls
      (by decide +kernel), by decide +kernel, by decide +kernel, by decide +kernel⟩

theorem jacobianFHead_step {s r : Str} (hs : '\n' ∉ s) (hr : '\n' ∉ r) (hls : s.length ≤ 20) (hlr : r.length ≤ 20) :
    ∀ x ∈ Rl.jacobianFHead s r, Step 132 0 x 0 := by
  unfold Rl.jacobianFHead
  simp only [List.forall_mem_cons, List.not_mem_nil, false_imp_iff, implies_true, and_true]
  refine ⟨by decide +kernel, by decide +kernel, by decide +kernel, by decide +kernel, by decide +kernel,
    Step.around (b := chars% ") :: r ") (by decide +kernel) hr (by decide +kernel) hlr
      (by decide +kernel), by decide +kernel,
    Step.around (b := chars% ") :: y ") (by decide +kernel) hs (by decide +kernel) hls
      (by decide +kernel), by decide +kernel, ?_, by decide +kernel, by decide +kernel⟩
  show Step 132 0 ((chars% "    REAL(8), intent(out), dimension(") ++ s ++ (chars% ",") ++ s ++
    ((chars% ") :: dy_dy ") ++ ['\n'])) 0
  rw [List.append_assoc (chars% "    REAL(8), intent(out), dimension(") s, List.append_assoc _ _ s]
  refine Step.around (d := 41) (by decide +kernel) ?_ (by decide +kernel) ?_ (by decide +kernel)
  · simp only [List.mem_append, not_or]
    exact ⟨⟨hs, by decide +kernel⟩, hs⟩
  · simp only [List.length_append, List.length_cons, List.length_nil]
    omega

/-! ### One line -/

theorem omp_step {shared : Str} (hs : '\n' ∉ shared) (hl : shared.length ≤ 100) (d : Omp) :
    Step 132 0 (d.text shared) 0 := by
  cases d with
  | parallel =>
    have e : Omp.text shared .parallel = ((chars% "!$OMP PARALLEL &") ++ ['\n']) ++
        ((chars% "!$OMP& SHARED(") ++ shared ++ ((chars% ")  ") ++ ['\n'])) := by
      show "!$OMP PARALLEL &\n!$OMP& SHARED(".toList ++ shared ++ ")  \n".toList = _
      rw [show "!$OMP PARALLEL &\n!$OMP& SHARED(".toList =
          ((chars% "!$OMP PARALLEL &") ++ ['\n']) ++ (chars% "!$OMP& SHARED(") from by decide +kernel,
        show ")  \n".toList = (chars% ")  ") ++ ['\n'] from by decide +kernel]
      simp only [List.append_assoc]
    rw [e]
    exact Step.append0 (by decide +kernel) (Step.around (by decide +kernel) hs (by decide +kernel) hl (by decide +kernel))
  | single => exact (by decide +kernel : Step 132 0 "!$OMP SINGLE \n".toList 0)
  | endSingle => exact (by decide +kernel : Step 132 0 "!$OMP END SINGLE NOWAIT\n".toList 0)
  | endParallel => exact (by decide +kernel : Step 132 0 "!$OMP END PARALLEL \n".toList 0)

/-- An assignment whose right-hand side, written from column `B`, ends at most in column `m`. -/
theorem asg_step {κ : Type} [Place κ] {L : Layout} {num : ℚ → Str} {k : κ} {ts : List Tok} {B m b : ℕ}
    (harr : '\n' ∉ L.array) (hplace : '\n' ∉ Place.text k)
    (hB : 7 + L.array.length + (Place.text k).length ≤ B) (hBm : B ≤ 132)
    (hts : ∀ k' ≤ B, Step 132 k' (rhsText L.lang num ts) m)
    (heol : L.eol = List.replicate b ' ' ++ ['\n']) (hm : m + b ≤ 132) :
    Step 132 0 (Line.text L num (.asg k ts)) 0 := by
  have e : Line.text L num (.asg k ts) = ((chars% "    ") ++ element L.lang L.array (Place.text k) ++ ['=']) ++
      (rhsText L.lang num ts ++ L.eol) := by
    show "    ".toList ++ element L.lang L.array (Place.text k) ++ '=' :: rhsText L.lang num ts ++ L.eol = _
    rw [show "    ".toList = (chars% "    ") from by decide +kernel]
    simp only [List.append_assoc, List.cons_append, List.nil_append]
  rw [e]
  have hlen : ((chars% "    ") ++ element L.lang L.array (Place.text k) ++ ['=']).length =
      7 + L.array.length + (Place.text k).length := by
    simp only [List.length_append, element_length, List.length_cons, List.length_nil]
    omega
  refine Step.append (m := B) (Step.plain ?_ ?_ ?_) (fun k' hk' => Step.append (hts k' hk') (fun k'' hk'' => ?_))
  · simp only [List.mem_append, not_or]
    exact ⟨⟨by decide, element_plain harr hplace⟩, by decide⟩
  · rw [hlen]; omega
  · rw [hlen]; omega
  · rw [heol]
    refine Step.ends (fun h => ?_) (by simp only [List.length_replicate]; omega)
    have := List.eq_of_mem_replicate h
    exact absurd this (by decide)

/-! ### Tendencies -/

theorem stoichF_length {num : ℚ → Str} {w : ℕ} {s : ℚ} (h : s ≠ 1 → (num (s + 1)).length ≤ w) :
    (rhsText .fortran num (if s = 1 then [] else [Tok.mul, .fac (.num (s + 1))])).length ≤ 1 + w := by
  split
  · simp [rhsText]
  · rename_i hs
    have : rhsText .fortran num [Tok.mul, .fac (.num (s + 1))] = '*' :: (num (s + 1) ++ []) := rfl
    rw [this, List.append_nil, List.length_cons]
    have := h hs
    omega

theorem lossToksF_rest {n B T x w d : ℕ} {num : ℚ → Str} (hn : ∀ q, '\n' ∉ num q) (h4 : 4 ≤ B)
    (hW : B + x + 5 * T + 3 ≤ n) (hT : 5 + d + w ≤ T) : ∀ (l : Dict ℕ ℚ) (flag k : ℕ),
    (∀ p ∈ l, (digits (p.1 + 1)).length ≤ d ∧ (p.2 ≠ 1 → (num (p.2 + 1)).length ≤ w)) →
    flag ≤ 5 → k ≤ B + x + flag * T →
    (lossToksF false flag l).2 ≤ 5 ∧
      Step n k (rhsText .fortran num (lossToksF false flag l).1) (B + x + (lossToksF false flag l).2 * T) := by
  intro l
  induction l with
  | nil =>
    intro flag k _ hf hk
    refine ⟨hf, Step.nil ?_ hk⟩
    have : flag * T ≤ 5 * T := Nat.mul_le_mul_right _ hf
    omega
  | cons p l ih =>
    intro flag k hl hf hk
    obtain ⟨c1, c2⟩ := Step.cont (num := num) (limit := 4) h4 hW hf hk
    obtain ⟨p1, p2⟩ := hl p (by simp)
    have hsw := stoichF_length p2
    have hflag : (contBefore 4 flag).2 + 1 ≤ 5 := by omega
    have hmul : (contBefore 4 flag).2 * T + T ≤ 5 * T := by
      calc (contBefore 4 flag).2 * T + T = ((contBefore 4 flag).2 + 1) * T := by ring
        _ ≤ 5 * T := Nat.mul_le_mul_right _ hflag
    have hr := ih ((contBefore 4 flag).2 + 1) (B + x + ((contBefore 4 flag).2 + 1) * T)
      (fun p hp => hl p (by simp [hp])) hflag le_rfl
    refine ⟨hr.1, ?_⟩
    show Step n k (rhsText .fortran num ((contBefore 4 flag).1 ++ [Tok.minus, .fac (.r (p.1 + 1))] ++
      (if p.2 = 1 then [] else [Tok.mul, .fac (.num (p.2 + 1))]) ++
      (lossToksF false ((contBefore 4 flag).2 + 1) l).1)) _
    rw [List.append_assoc, List.append_assoc, rhsText_append]
    refine Step.append c2 (fun k' hk' => ?_)
    rw [← List.append_assoc, rhsText_append]
    have hlen : (rhsText .fortran num ([Tok.minus, .fac (.r (p.1 + 1))] ++
      (if p.2 = 1 then [] else [Tok.mul, .fac (.num (p.2 + 1))]))).length ≤ T := by
      have e : rhsText .fortran num [Tok.minus, .fac (.r (p.1 + 1))] =
          '-' :: (element .fortran ['r'] (digits (p.1 + 1)) ++ []) := rfl
      rw [rhsText_append, List.length_append, e, List.append_nil, List.length_cons, element_length, List.length_cons,
        List.length_nil]
      omega
    refine Step.append (m := B + x + ((contBefore 4 flag).2 + 1) * T) (Step.toks hn ?_ ?_ ?_) (fun k'' hk'' => ?_)
    · split <;> simp
    · omega
    · rw [Nat.add_mul, Nat.one_mul]; omega
    · exact (ih _ k'' (fun p hp => hl p (by simp [hp])) hflag hk'').2

theorem lossToksF_full {n B T w d : ℕ} {num : ℚ → Str} (hn : ∀ q, '\n' ∉ num q) (h4 : 4 ≤ B)
    (hW : B + ((num 1).length + 1) + 5 * T + 3 ≤ n) (hT : 5 + d + w ≤ T) (l : Dict ℕ ℚ) (k : ℕ)
    (hl : ∀ p ∈ l, (digits (p.1 + 1)).length ≤ d ∧ (p.2 ≠ 1 → (num (p.2 + 1)).length ≤ w)) (hk : k ≤ B) :
    (lossToksF true 0 l).2 ≤ 5 ∧ Step n k (rhsText .fortran num (lossToksF true 0 l).1)
      (B + ((num 1).length + 1) + (lossToksF true 0 l).2 * T) := by
  cases l with
  | nil => exact ⟨by decide, Step.nil (by omega) (by show k ≤ _ + 0 * T; omega)⟩
  | cons p l =>
    obtain ⟨p1, p2⟩ := hl p (by simp)
    have hsw := stoichF_length p2
    have hr := fun k => lossToksF_rest hn h4 hW hT l 1 k (fun p hp => hl p (by simp [hp])) (by decide)
    refine ⟨(hr 0 (Nat.zero_le _)).1, ?_⟩
    show Step n k (rhsText .fortran num (([Tok.minus, .fac (.num 1), .mul, .fac (.r (p.1 + 1))] ++
      (if p.2 = 1 then [] else [Tok.mul, .fac (.num (p.2 + 1))])) ++ (lossToksF false 1 l).1)) _
    rw [rhsText_append]
    have hlen : (rhsText .fortran num ([Tok.minus, .fac (.num 1), .mul, .fac (.r (p.1 + 1))] ++
      (if p.2 = 1 then [] else [Tok.mul, .fac (.num (p.2 + 1))]))).length ≤ (num 1).length + 1 + T := by
      have e : rhsText .fortran num [Tok.minus, .fac (.num 1), .mul, .fac (.r (p.1 + 1))] =
          '-' :: (num 1 ++ ('*' :: (element .fortran ['r'] (digits (p.1 + 1)) ++ []))) := rfl
      rw [rhsText_append, List.length_append, e, List.append_nil, List.length_cons, List.length_append,
        List.length_cons, element_length, List.length_cons, List.length_nil]
      omega
    refine Step.append (m := B + ((num 1).length + 1) + 1 * T) (Step.toks hn ?_ ?_ ?_) (fun k'' hk'' => (hr k'' hk'').2)
    · split <;> simp
    · omega
    · omega

theorem gainToksF_step {n B T x w d : ℕ} {num : ℚ → Str} (hn : ∀ q, '\n' ∉ num q) (h4 : 4 ≤ B)
    (hW : B + x + 5 * T + 3 ≤ n) (hT : 5 + d + w ≤ T) : ∀ (l : Dict ℕ ℚ) (flag k : ℕ),
    (∀ p ∈ l, (digits (p.1 + 1)).length ≤ d ∧ (p.2 ≠ 1 → (num (p.2 + 1)).length ≤ w)) →
    flag ≤ 5 → k ≤ B + x + flag * T → Step n k (rhsText .fortran num (gainToksF flag l)) (B + x + 5 * T) := by
  intro l
  induction l with
  | nil =>
    intro flag k _ hf hk
    have : flag * T ≤ 5 * T := Nat.mul_le_mul_right _ hf
    exact Step.nil (by omega) (by omega)
  | cons p l ih =>
    intro flag k hl hf hk
    obtain ⟨c1, c2⟩ := Step.cont (num := num) (limit := 4) h4 hW hf hk
    obtain ⟨p1, p2⟩ := hl p (by simp)
    have hsw := stoichF_length p2
    have hflag : (contBefore 4 flag).2 + 1 ≤ 5 := by omega
    have hmul : (contBefore 4 flag).2 * T + T ≤ 5 * T := by
      calc (contBefore 4 flag).2 * T + T = ((contBefore 4 flag).2 + 1) * T := by ring
        _ ≤ 5 * T := Nat.mul_le_mul_right _ hflag
    show Step n k (rhsText .fortran num ((contBefore 4 flag).1 ++ [Tok.plus, .fac (.r (p.1 + 1))] ++
      (if p.2 = 1 then [] else [Tok.mul, .fac (.num (p.2 + 1))]) ++ gainToksF ((contBefore 4 flag).2 + 1) l)) _
    rw [List.append_assoc, List.append_assoc, rhsText_append]
    refine Step.append c2 (fun k' hk' => ?_)
    rw [← List.append_assoc, rhsText_append]
    have hlen : (rhsText .fortran num ([Tok.plus, .fac (.r (p.1 + 1))] ++
      (if p.2 = 1 then [] else [Tok.mul, .fac (.num (p.2 + 1))]))).length ≤ T := by
      have e : rhsText .fortran num [Tok.plus, .fac (.r (p.1 + 1))] =
          '+' :: (element .fortran ['r'] (digits (p.1 + 1)) ++ []) := rfl
      rw [rhsText_append, List.length_append, e, List.append_nil, List.length_cons, element_length, List.length_cons,
        List.length_nil]
      omega
    refine Step.append (m := B + x + ((contBefore 4 flag).2 + 1) * T) (Step.toks hn ?_ ?_ ?_) (fun k'' hk'' => ?_)
    · split <;> simp
    · omega
    · rw [Nat.add_mul, Nat.one_mul]; omega
    · exact ih _ k'' (fun p hp => hl p (by simp [hp])) hflag hk''

theorem withOmp_mem {κ : Type} {breaks : Option (List Nat)} {groups : List (List (Line κ))} {l : Line κ}
    (h : l ∈ withOmp breaks groups) : (∃ d, l = .omp d) ∨ ∃ g ∈ groups, l ∈ g := by
  cases l with
  | omp d => exact .inl ⟨d, rfl⟩
  | asg k rhs => exact .inr (withOmp_asg h)
  | blank =>
    refine .inr ?_
    unfold withOmp at h
    cases breaks with
    | none => exact List.mem_flatten.1 h
    | some bs =>
      rcases List.mem_append.1 h with h | h
      · obtain ⟨g, hg, h⟩ := List.mem_flatten.1 h
        obtain ⟨gi, hgi, rfl⟩ := List.mem_map.1 hg
        rcases List.mem_append.1 h with h | h
        · unfold ompBefore at h
          rcases List.mem_append.1 h with h | h <;> split at h <;> simp at h
        · exact ⟨gi.1, (List.mem_zipIdx' hgi).2 ▸ List.getElem_mem _, h⟩
      · simp at h

theorem digits5 {i : ℕ} (h : i ≤ 99999) : (digits i).length ≤ 5 := digits_le (by decide) (by omega)

/-- Lines of a program: directives, blank lines and assignments. -/
theorem lines_step {κ : Type} [Place κ] {L : Layout} {num : ℚ → Str} {breaks : Option (List Nat)}
    {groups : List (List (Line κ))} {b : ℕ} (hs : '\n' ∉ L.shared) (hl : L.shared.length ≤ 100)
    (heol : L.eol = List.replicate b ' ' ++ ['\n']) (hb : b ≤ 132)
    (h : ∀ k rhs, Line.asg k rhs ∈ withOmp breaks groups → Step 132 0 (Line.text L num (.asg k rhs)) 0) :
    ∀ l ∈ withOmp breaks groups, Step 132 0 (Line.text L num l) 0 := by
  intro l hl'
  cases l with
  | omp d => exact omp_step hs hl d
  | asg k rhs => exact h k rhs hl'
  | blank =>
    show Step 132 0 L.eol 0
    rw [heol]
    refine Step.ends (fun h => ?_) (by simp only [List.length_replicate]; omega)
    have := List.eq_of_mem_replicate h
    exact absurd this (by decide)

theorem lossGainF_width {g : GenIn} {n q : ℕ} (hf : Fits g n q) (hn5 : n ≤ 99999) (hq5 : q ≤ 99999) {num : ℚ → Str}
    (hn : ∀ q, '\n' ∉ num q) (h1 : (num 1).length ≤ 3)
    (hl : ∀ s, ∀ p ∈ g.loss.getD s [], p.2 ≠ 1 → (num (p.2 + 1)).length ≤ 9)
    (hg : ∀ s, ∀ p ∈ g.gain.getD s [], p.2 ≠ 1 → (num (p.2 + 1)).length ≤ 9)
    {date : Str} (hd : '\n' ∉ date) (hd' : date.length ≤ 100) (cores : Option ℕ) :
    LinesWithin 132 (fileText lossGainFLayout num date n q (writeLossGainF g n cores)) := by
  refine file_lines (by decide +kernel) (createdAt_step hd hd')
    (lossGainFHead_step (digits_plain _) (digits_plain _) ((digits5 hn5).trans (by decide))
      ((digits5 hq5).trans (by decide))) ?_ (by decide +kernel)
  have heol : lossGainFLayout.eol = List.replicate 1 ' ' ++ ['\n'] := by decide +kernel
  refine lines_step (by decide +kernel) (by decide +kernel) heol (by decide) ?_
  intro k rhs hk
  obtain ⟨grp, hgr, hk⟩ := withOmp_asg hk
  obtain ⟨p, hp, rfl⟩ := List.mem_map.1 hgr
  have hk := (List.mem_singleton.1 hk).symm
  unfold tendencyLineF at hk
  split at hk
  · cases hk
  · split at hk
    · cases hk
      have hlt := hf.index p hp
      have h15 : lossGainFLayout.array.length = 15 := by decide +kernel
      refine asg_step (B := 27) (m := 27 + ((num 1).length + 1) + 5 * 19) (by decide +kernel) (digits_plain _) ?_ (by decide) ?_ heol ?_
      · have := digits5 (i := p.2 + 1) (by omega)
        show 7 + lossGainFLayout.array.length + (digits (p.2 + 1)).length ≤ 27
        omega
      · intro k' hk'
        show Step 132 k' (rhsText .fortran num _) _
        rw [rhsText_append]
        have keys : ∀ (d : Dict ℕ ℚ), (∀ e ∈ d.keys, e < q) → ∀ x ∈ d, (digits (x.1 + 1)).length ≤ 5 := by
          intro d hd x hx
          have := hd x.1 (List.mem_map_of_mem (f := Prod.fst) hx)
          exact digits5 (by omega)
        have loss := lossToksF_full (n := 132) (B := 27) (T := 19) (w := 9) (d := 5) hn (by decide) (by omega) (by decide)
          (g.loss.getD p.1 []) k' (fun x hx => ⟨keys _ (hf.loss _) x hx, hl _ x hx⟩) hk'
        have gain := fun flag k => gainToksF_step (n := 132) (B := 27) (T := 19) (x := (num 1).length + 1) (w := 9) (d := 5) hn
          (by decide) (by omega) (by decide) (g.gain.getD p.1 []) flag k
          (fun x hx => ⟨keys _ (hf.gain _) x hx, hg _ x hx⟩)
        refine Step.append (m := 27 + ((num 1).length + 1) +
          (if p.1 ∈ g.loss.keys then lossToksF true 0 (g.loss.getD p.1 []) else ([], 0)).2 * 19) ?_ (fun k'' hk'' => ?_)
        · split
          · exact loss.2
          · exact Step.nil (by omega) (by omega)
        · have hfl : (if p.1 ∈ g.loss.keys then lossToksF true 0 (g.loss.getD p.1 []) else ([], 0)).2 ≤ 5 := by
            split
            · exact loss.1
            · decide
          split
          · exact gain _ _ hfl hk''
          · exact Step.nil (by omega) (by omega)
      · omega
    · cases hk

/-! ### Reactant products -/

theorem yFac_length {num : ℚ → Str} {i : ℕ} {c : ℚ} {d w : ℕ} (hi : (digits i).length ≤ d)
    (hc : c ≠ 1 → (num c).length ≤ w) : ((yFac i c).text .fortran num).length ≤ 5 + d + w := by
  unfold yFac
  split
  · show (element .fortran ['y'] (digits i)).length ≤ _
    rw [element_length, List.length_cons, List.length_nil]
    omega
  · rename_i h
    have := hc h
    have h2 : "**".toList.length = 2 := by decide +kernel
    show (element .fortran ['y'] (digits i) ++ "**".toList ++ num c).length ≤ _
    rw [List.length_append, List.length_append, element_length, List.length_cons, List.length_nil, h2]
    omega

theorem reactants_fold {g : GenIn} {n q e : ℕ} (hf : Fits g n q) (hn5 : n ≤ 99999) {num : ℚ → Str} {w : ℕ} :
    ∀ (l : List Str) (st st' : Option (List Tok)),
    (∀ s ∈ l, ∀ c, lossCoef g s e = .ok c → c ≠ 1 → (num c).length ≤ w) →
    l.foldlM (reactantStepF g e) st = .ok st' →
    (∀ ts, st = some ts → Tok.cont ∉ ts) →
    ∀ ts', st' = some ts' → Tok.cont ∉ ts' ∧
      (rhsText .fortran num ts').length ≤ (rhsText .fortran num (st.getD [])).length + l.length * (11 + w) := by
  intro l
  induction l with
  | nil =>
    intro st st' _ h hst ts' hts'
    cases h
    subst hts'
    exact ⟨hst _ rfl, by simp⟩
  | cons s l ih =>
    intro st st' hc h hst ts' hts'
    rw [List.foldlM_cons] at h
    obtain ⟨st1, h1, h⟩ := bind_ok h
    have key : (∀ ts, st1 = some ts → Tok.cont ∉ ts) ∧
        (rhsText .fortran num (st1.getD [])).length ≤ (rhsText .fortran num (st.getD [])).length + (11 + w) := by
      unfold reactantStepF at h1
      split at h1
      · cases h1
        exact ⟨hst, by omega⟩
      · obtain ⟨c, hcc, h1⟩ := bind_ok h1
        obtain ⟨i, hi, h1⟩ := bind_ok h1
        have hi := hf.get hi
        have hy := yFac_length (num := num) (c := c) (w := w) (digits5 (i := i + 1) (by omega))
          (hc s (by simp) c hcc)
        cases st with
        | none =>
          cases h1
          refine ⟨?_, ?_⟩
          · intro ts hts; cases hts; simp
          · show ((yFac (i + 1) c).text .fortran num ++ []).length ≤ _
            rw [List.append_nil]
            omega
        | some ts =>
          cases h1
          refine ⟨?_, ?_⟩
          · intro ts hts; cases hts
            have := hst _ rfl
            simp [this]
          · show (rhsText .fortran num (ts ++ [Tok.mul, .fac (yFac (i + 1) c)])).length ≤ (rhsText .fortran num ts).length + _
            rw [rhsText_append, List.length_append]
            show _ + ('*' :: ((yFac (i + 1) c).text .fortran num ++ [])).length ≤ _
            rw [List.append_nil, List.length_cons]
            omega
    obtain ⟨r1, r2⟩ := ih st1 st' (fun s hs => hc s (by simp [hs])) h key.1 ts' hts'
    refine ⟨r1, r2.trans ?_⟩
    rw [List.length_cons, Nat.add_mul, Nat.one_mul]
    omega

theorem reactantsF_width {g : GenIn} {n q : ℕ} (hf : Fits g n q) (hn5 : n ≤ 99999) (hq5 : q ≤ 99999) {num : ℚ → Str}
    (hn : ∀ q, '\n' ∉ num q) {R w : ℕ} (hR : R * (11 + w) ≤ 106)
    (hr : ∀ e < q, (reactantsOf g e).length ≤ R)
    (hc : ∀ e < q, ∀ s ∈ reactantsOf g e, ∀ c, lossCoef g s e = .ok c → c ≠ 1 → (num c).length ≤ w)
    {date : Str} (hd : '\n' ∉ date) (hd' : date.length ≤ 100) {cores : Option ℕ} {P : List (Line ℕ)}
    (hP : writeReactantsF g q cores = .ok P) :
    LinesWithin 132 (fileText reactantsFLayout num date n q P) := by
  refine file_lines (by decide +kernel) (createdAt_step hd hd')
    (reactantsFHead_step (digits_plain _) (digits_plain _) ((digits5 hn5).trans (by decide))
      ((digits5 hq5).trans (by decide))) ?_ (by decide +kernel)
  have heol : reactantsFLayout.eol = List.replicate 0 ' ' ++ ['\n'] := by decide +kernel
  obtain ⟨ls, hls, hP⟩ := bind_ok hP
  cases hP
  refine lines_step (by decide +kernel) (by decide +kernel) heol (by decide) ?_
  intro k rhs hk
  obtain ⟨grp, hg, hk⟩ := withOmp_asg hk
  obtain ⟨e, he, h1⟩ := mapM_mem _ _ hls _ hg
  obtain ⟨l, hl, h1⟩ := bind_ok h1
  have h1 : [toLine (e + 1) l] = grp := Except.ok.inj h1
  subst h1
  obtain ⟨rfl, rfl⟩ := toLine_asg (List.mem_singleton.1 hk)
  have he := List.mem_range.1 he
  obtain ⟨h1, h2⟩ := reactants_fold hf hn5 (num := num) (w := w) (reactantsOf g e) none _ (hc e he) hl (by simp) rhs rfl
  have h14 : reactantsFLayout.array.length = 14 := by decide +kernel
  have h2 : (rhsText .fortran num rhs).length ≤ 106 := by
    have h3 : (rhsText .fortran num ((none : Option (List Tok)).getD [])).length = 0 := rfl
    have h4 : (reactantsOf g e).length * (11 + w) ≤ R * (11 + w) := Nat.mul_le_mul_right _ (hr e he)
    omega
  refine asg_step (B := 26) (m := 132) (by decide +kernel) (digits_plain _) ?_ (by decide) ?_ heol (by decide)
  · have := digits5 (i := e + 1) (by omega)
    show 7 + reactantsFLayout.array.length + (digits (e + 1)).length ≤ 26
    omega
  · intro k' hk'
    have h2 : (rhsText reactantsFLayout.lang num rhs).length ≤ 106 := h2
    exact Step.toks hn h1 (by omega) (by omega)

/-! ### Jacobian -/

/-- What has been written of a term: nothing, or a sign, a small number and one concentration. -/
def ShortProduct (n : ℕ) (sign : Tok) (st : Option (List Tok)) : Prop :=
  st = none ∨ ∃ c i, (c = 1 ∨ c = 2) ∧ i < n ∧ st = some [sign, .fac (.num c), .mul, .fac (.y (i + 1))]

theorem jacFactor_own {g : GenIn} {n q e : ℕ} (hf : Fits g n q) {sign : Tok} {x : Str} {sf : ℚ}
    (hsf : sf = 1 ∨ sf = 2) {st' : Option (List Tok)} (h : jacFactor g 1 sign x e sf none x = .ok st') :
    ShortProduct n sign st' ∧ (sf = 1 → st' = none) := by
  unfold jacFactor at h
  split at h
  · cases h; exact ⟨.inl rfl, fun _ => rfl⟩
  · rw [if_pos rfl] at h
    rcases hsf with rfl | rfl
    · rw [if_pos rfl] at h
      cases h; exact ⟨.inl rfl, fun _ => rfl⟩
    · rw [if_neg (by norm_num)] at h
      obtain ⟨i, hi, h⟩ := bind_ok h
      rw [if_pos rfl] at h
      cases h
      exact ⟨.inr ⟨2, i, .inr rfl, hf.get hi, rfl⟩, fun h => absurd h (by norm_num)⟩

theorem jacFactor_one {g : GenIn} {e : ℕ} {sign : Tok} {x : Str} {st st' : Option (List Tok)}
    (h : jacFactor g 1 sign x e 1 st x = .ok st') : st' = st := by
  unfold jacFactor at h
  split at h
  · cases h; rfl
  · rw [if_pos rfl, if_pos rfl] at h
    cases h; rfl

theorem jacFactor_other {g : GenIn} {n q e : ℕ} (hf : Fits g n q) {sign : Tok} {x b : Str} {sf : ℚ} (hb : b ≠ x)
    (hc : lossCoef g b e = .ok 1) {st' : Option (List Tok)} (h : jacFactor g 1 sign x e sf none b = .ok st') :
    ShortProduct n sign st' := by
  unfold jacFactor at h
  split at h
  · cases h; exact .inl rfl
  · simp only [hc] at h
    obtain ⟨c, hc', h⟩ := bind_ok h
    cases hc'
    obtain ⟨i, hi, h⟩ := bind_ok h
    cases h
    refine .inr ⟨1, i, .inl rfl, hf.get hi, ?_⟩
    unfold yFac
    rw [if_pos rfl]

/-- Reactants of one reaction as the theorem needs them: one, with coefficient 1 or 2, or two with coefficient 1. -/
def Small (g : GenIn) (e : ℕ) (l : List Str) : Prop :=
  (∃ a, l = [a] ∧ ∀ c, lossCoef g a e = .ok c → c = 1 ∨ c = 2) ∨
    ∃ a b, a ≠ b ∧ l = [a, b] ∧ lossCoef g a e = .ok 1 ∧ lossCoef g b e = .ok 1

theorem jacTerm_width {g : GenIn} {n q e : ℕ} (hf : Fits g n q) (hn5 : n ≤ 99999) (hq5 : q ≤ 99999) (he : e < q)
    {num : ℚ → Str} (h1 : (num 1).length ≤ 3) (h2 : (num 2).length ≤ 3) {ord : SetOrder} {sign : Tok}
    (hs : (sign.text .fortran num).length = 1) (hsc : sign ≠ .cont) {x : Str}
    (hl : Small g e (ord (reactantsOf g e))) (hx : x ∈ ord (reactantsOf g e)) {ts : List Tok}
    (h : jacTerm g ord 1 sign x e = .ok ts) :
    Tok.cont ∉ ts ∧ (rhsText .fortran num ts).length ≤ 22 := by
  unfold jacTerm at h
  obtain ⟨sf, hsf, h⟩ := bind_ok h
  obtain ⟨st, hst, h⟩ := bind_ok h
  have hr : (element .fortran ['r'] (digits (e + 1))).length ≤ 8 := by
    have := digits5 (i := e + 1) (by omega)
    rw [element_length, List.length_cons, List.length_nil]
    omega
  have key : ShortProduct n sign st := by
    rcases hl with ⟨a, hl, hc⟩ | ⟨a, b, hab, hl, ha, hb⟩
    · rw [hl] at hx hst
      obtain rfl := List.mem_singleton.1 hx
      rw [List.foldlM_cons] at hst
      obtain ⟨st1, hs1, hst⟩ := bind_ok hst
      cases hst
      exact (jacFactor_own hf (hc sf hsf) hs1).1
    · rw [hl] at hx hst
      rw [List.foldlM_cons] at hst
      obtain ⟨st1, hs1, hst⟩ := bind_ok hst
      rw [List.foldlM_cons] at hst
      obtain ⟨st2, hs2, hst⟩ := bind_ok hst
      cases hst
      rcases List.mem_cons.1 hx with rfl | hx
      · rw [ha] at hsf; cases hsf
        obtain ⟨-, h0⟩ := jacFactor_own hf (.inl rfl) hs1
        rw [h0 rfl] at hs2
        exact jacFactor_other hf (Ne.symm hab) hb hs2
      · obtain rfl := List.mem_singleton.1 hx
        rw [hb] at hsf; cases hsf
        rw [jacFactor_one hs2]
        exact jacFactor_other hf hab ha hs1
  rcases key with rfl | ⟨c, i, hc, hi, rfl⟩
  · cases h
    refine ⟨by simp [Ne.symm hsc], ?_⟩
    show (sign.text .fortran num ++ (num 1 ++ ('*' :: (element .fortran ['r'] (digits (e + 1)) ++ [])))).length ≤ 22
    rw [List.append_nil, List.length_append, List.length_append, List.length_cons]
    omega
  · cases h
    refine ⟨by simp [Ne.symm hsc], ?_⟩
    have hy : (element .fortran ['y'] (digits (i + 1))).length ≤ 8 := by
      have := digits5 (i := i + 1) (by omega)
      rw [element_length, List.length_cons, List.length_nil]
      omega
    have hnum : (num c).length ≤ 3 := by rcases hc with rfl | rfl <;> assumption
    show (sign.text .fortran num ++ (num c ++ ('*' :: (element .fortran ['y'] (digits (i + 1)) ++
      ('*' :: (element .fortran ['r'] (digits (e + 1)) ++ [])))))).length ≤ 22
    rw [List.append_nil, List.length_append, List.length_append, List.length_cons, List.length_append,
      List.length_cons]
    omega

theorem jacTermsF_width {g : GenIn} {n q : ℕ} (hf : Fits g n q) (hn5 : n ≤ 99999) (hq5 : q ≤ 99999)
    {num : ℚ → Str} (hn : ∀ q, '\n' ∉ num q) (h1 : (num 1).length ≤ 3) (h2 : (num 2).length ≤ 3) {ord : SetOrder}
    {sign : Tok} (hs : (sign.text .fortran num).length = 1) (hsc : sign ≠ .cont) {x : Str}
    (hl : ∀ e < q, ∀ x ∈ ord (reactantsOf g e), Small g e (ord (reactantsOf g e))) :
    ∀ (es : List ℕ) (flag k : ℕ) (r : List Tok × ℕ), (∀ e ∈ es, e < q) → flag ≤ 4 → k ≤ 23 + 0 + flag * 22 →
    jacTermsF g ord sign x flag es = .ok r →
    r.2 ≤ 4 ∧ Step 132 k (rhsText .fortran num r.1) (23 + 0 + r.2 * 22) := by
  intro es
  induction es with
  | nil =>
    intro flag k r _ hfl hk h
    cases h
    exact ⟨hfl, Step.nil (by omega) hk⟩
  | cons e es ih =>
    intro flag k r hes hfl hk h
    unfold jacTermsF at h
    split at h
    · rename_i hx
      obtain ⟨t, ht, h⟩ := bind_ok h
      obtain ⟨r', hr', h⟩ := bind_ok h
      cases h
      obtain ⟨c1, c2⟩ := Step.cont (num := num) (n := 132) (limit := 3) (B := 23) (T := 22) (x := 0) (by decide)
        (by decide) hfl hk
      have he := hes e (by simp)
      obtain ⟨t1, t2⟩ := jacTerm_width hf hn5 hq5 he h1 h2 hs hsc (hl e he x hx) hx ht
      have hr := fun k hk => ih ((contBefore 3 flag).2 + 1) k r' (fun e he => hes e (by simp [he])) (by omega) hk hr'
      refine ⟨(hr 0 (by omega)).1, ?_⟩
      show Step 132 k (rhsText .fortran num ((contBefore 3 flag).1 ++ t ++ r'.1)) _
      rw [List.append_assoc, rhsText_append, rhsText_append]
      refine Step.append c2 (fun k' hk' => ?_)
      refine Step.append (m := 23 + 0 + ((contBefore 3 flag).2 + 1) * 22) (Step.toks hn t1 ?_ ?_) (fun k'' hk'' => (hr k'' hk'').2)
      · omega
      · omega
    · exact ih flag k r (fun e he => hes e (by simp [he])) hfl hk h

theorem jacobianF_width {g : GenIn} {n q : ℕ} (hf : Fits g n q) (hn5 : n ≤ 99999) (hq5 : q ≤ 99999)
    {num : ℚ → Str} (hn : ∀ q, '\n' ∉ num q) (h1 : (num 1).length ≤ 3) (h2 : (num 2).length ≤ 3) {ord : SetOrder}
    (hl : ∀ e < q, ∀ x ∈ ord (reactantsOf g e), Small g e (ord (reactantsOf g e)))
    {date : Str} (hd : '\n' ∉ date) (hd' : date.length ≤ 100) {cores : Option ℕ} {P : List (Line (ℕ × ℕ))}
    (hP : writeJacobianF g ord n cores = .ok P) :
    LinesWithin 132 (fileText jacobianFLayout num date n q P) := by
  refine file_lines (by decide +kernel) (createdAt_step hd hd')
    (jacobianFHead_step (digits_plain _) (digits_plain _) ((digits5 hn5).trans (by decide))
      ((digits5 hq5).trans (by decide))) ?_ (by decide +kernel)
  have heol : jacobianFLayout.eol = List.replicate 1 ' ' ++ ['\n'] := by decide +kernel
  obtain ⟨ls, hls, hP⟩ := bind_ok hP
  cases hP
  refine lines_step (by decide +kernel) (by decide +kernel) heol (by decide) ?_
  intro k rhs hk
  obtain ⟨grp, hg, hk⟩ := withOmp_asg hk
  obtain ⟨p, hp, h3⟩ := mapM_mem _ _ hls _ hg
  unfold jacLinesF at h3
  split at h3
  · cases h3; simp at hk
  · obtain ⟨x, hx, h4⟩ := mapM_mem _ _ h3 _ hk
    obtain ⟨j, hj, h4⟩ := bind_ok h4
    obtain ⟨l, hl1, h4⟩ := bind_ok h4
    obtain ⟨k', hk1, h4⟩ := bind_ok h4
    cases h4
    have hi := hf.index p hp
    have hj := hf.get hj
    have h5 : jacobianFLayout.array.length = 5 := by decide +kernel
    obtain ⟨l1, l2⟩ := jacTermsF_width hf hn5 hq5 hn h1 h2 (sign := .minus) rfl (by simp) hl _ 0 0 l
      (fun e he => hf.loss _ e he) (by decide) (by decide) hl1
    refine asg_step (B := 23) (m := 23 + 0 + 4 * 22) (by decide +kernel) ?_ ?_ (by decide) ?_ heol (by decide)
    · show '\n' ∉ digits (p.2 + 1) ++ ',' :: digits (j + 1)
      simp only [List.mem_append, List.mem_cons, not_or]
      exact ⟨digits_plain _, by decide, digits_plain _⟩
    · have a1 := digits5 (i := p.2 + 1) (by omega)
      have a2 := digits5 (i := j + 1) (by omega)
      show 7 + jacobianFLayout.array.length + (digits (p.2 + 1) ++ ',' :: digits (j + 1)).length ≤ 23
      rw [List.length_append, List.length_cons]
      omega
    · intro k0 hk0
      show Step 132 k0 (rhsText .fortran num _) _
      rw [rhsText_append]
      have s1 := (jacTermsF_width hf hn5 hq5 hn h1 h2 (sign := .minus) rfl (by simp) hl _ 0 k0 l
        (fun e he => hf.loss _ e he) (by decide) (by omega) hl1).2
      refine Step.append s1 (fun k1 hk1' => ?_)
      obtain ⟨g1, g2⟩ := jacTermsF_width hf hn5 hq5 hn h1 h2 (sign := .plus) rfl (by simp) hl _ l.2 k1 k'
        (fun e he => hf.gain _ e he) l1 hk1' hk1
      exact g2.mono (by omega)

/-! ### Rates -/

theorem rateLineF_step {p : ℕ × Str} (hp : p.1 + 1 ≤ 99999) (hl : p.2.length ≤ 107) (hn : '\n' ∉ p.2) :
    Step 132 0 (rateLineF p) 0 := by
  have e : rateLineF p = ((chars% "    rate_values(") ++ (digits (p.1 + 1) ++ ((chars% ") =") ++ p.2)) ++ ([' '] ++ ['\n'])) := by
    show "    rate_values(".toList ++ digits (p.1 + 1) ++ ") =".toList ++ p.2 ++ " \n".toList = _
    rw [show "    rate_values(".toList = (chars% "    rate_values(") from by decide +kernel,
      show ") =".toList = (chars% ") =") from by decide +kernel,
      show " \n".toList = [' '] ++ ['\n'] from by decide +kernel]
    simp only [List.append_assoc]
  rw [e]
  refine Step.around (d := 115) (by decide +kernel) ?_ (by decide) ?_ (by decide +kernel)
  · simp only [List.mem_append, not_or]
    exact ⟨digits_plain _, by decide +kernel, hn⟩
  · have := digits5 hp
    simp only [List.length_append, List.length_cons, List.length_nil]
    omega

theorem ompTextBefore_step (bs : List ℕ) (k : ℕ) : Step 132 0 (ompTextBefore bs k) 0 := by
  unfold ompTextBefore
  refine Step.append0 ?_ ?_
  · split
    · exact (by decide +kernel : Step 132 0 "!$OMP PARALLEL &\n!$OMP& SHARED(rate_values, J)  \n!$OMP SINGLE \n".toList 0)
    · exact Step.nil (Nat.zero_le _) le_rfl
  · split
    · exact (by decide +kernel : Step 132 0 "!$OMP END SINGLE NOWAIT \n!$OMP SINGLE \n".toList 0)
    · exact Step.nil (Nat.zero_le _) le_rfl

theorem writeRatesF_step {d : Dict ℕ Str} (h : ∀ p ∈ d, p.1 + 1 ≤ 99999 ∧ p.2.length ≤ 107 ∧ '\n' ∉ p.2)
    (cores : Option ℕ) : Step 132 0 (writeRatesF d cores) 0 := by
  have hend : Step 132 0 "\nend subroutine\n".toList 0 := by decide +kernel
  have hline : ∀ p ∈ d, Step 132 0 (rateLineF p) 0 := fun p hp => rateLineF_step (h p hp).1 (h p hp).2.1 (h p hp).2.2
  cases cores with
  | none =>
    refine Step.append0 (Step.flatten ?_) hend
    intro x hx
    obtain ⟨p, hp, rfl⟩ := List.mem_map.1 hx
    exact hline p hp
  | some c =>
    refine Step.append0 (Step.append0 (Step.flatten ?_)
      (by decide +kernel : Step 132 0 "!$OMP END SINGLE NOWAIT \n!$OMP END PARALLEL \n".toList 0)) hend
    intro x hx
    obtain ⟨p, hp, rfl⟩ := List.mem_map.1 hx
    exact Step.append0 (ompTextBefore_step _ _) (hline p.1 ((List.mem_zipIdx' hp).2 ▸ List.getElem_mem _))

/-! ### Partitioning -/

open Ft in
/-- Length of a line whose numbers have at most `d` digits. -/
def pieceLength (d : ℕ) : Piece → ℕ
  | .txt s => s.length
  | .hole _ => d

open Ft in
theorem lineText_fits {n d : ℕ} {ρ : Hole → ℕ} (hρ : ∀ h, (digits (ρ h)).length ≤ d) :
    ∀ l : List Piece, (∀ s, Piece.txt s ∈ l → '\n' ∉ s) → (l.map (pieceLength d)).sum ≤ n →
    '\n' ∉ lineText ρ l ∧ (lineText ρ l).length ≤ (l.map (pieceLength d)).sum := by
  intro l
  induction l with
  | nil => intro _ _; exact ⟨by simp [lineText], le_rfl⟩
  | cons p l ih =>
    intro h1 h2
    rw [List.map_cons, List.sum_cons] at h2 ⊢
    obtain ⟨i1, i2⟩ := ih (fun s hs => h1 s (by simp [hs])) (by omega)
    have e : lineText ρ (p :: l) = p.text ρ ++ lineText ρ l := by simp [lineText]
    rw [e, List.mem_append, List.length_append, not_or]
    cases p with
    | txt s => exact ⟨⟨h1 s (by simp), i1⟩, by show s.length + _ ≤ s.length + _; omega⟩
    | hole h => exact ⟨⟨digits_plain _, i1⟩, by show (digits (ρ h)).length + _ ≤ d + _; have := hρ h; omega⟩

open Ft in
/-- The fixed text of a line has no line break, and with numbers of 9 digits the line fits. -/
def pieceOk (l : List Piece) : Bool :=
  l.all (fun p => match p with | .txt s => !s.contains '\n' | .hole _ => true) && (l.map (pieceLength 9)).sum ≤ 132

theorem pieceOk_sources : (Ft.partTop ++ Ft.partHead ++ Ft.partFoot).all pieceOk = true := by decide +kernel

open Ft in
theorem piece_step {ρ : Hole → ℕ} (hρ : ∀ h, (digits (ρ h)).length ≤ 9) {l : List Piece} (h : pieceOk l = true) :
    '\n' ∉ lineText ρ l ∧ (lineText ρ l).length ≤ 132 := by
  unfold pieceOk at h
  rw [Bool.and_eq_true, List.all_eq_true, decide_eq_true_eq] at h
  obtain ⟨h1, h2⟩ := lineText_fits hρ l (fun s hs => by simpa using h.1 _ hs) h.2
  exact ⟨h1, h2.trans h.2⟩

namespace Spec

/-- At most two molecules react: `A`, `2A`, `A + A` or `A + B`; light does not count. -/
def Bimolecular (q : RawEqn) : Prop :=
  (∀ p ∈ chemReactants q, p.1 = 1 ∨ p.1 = 2) ∧ ((chemReactants q).map (·.1)).sum ≤ 2

/-- All lines of the Fortran gas files written for a mechanism fit. `num` is how Python prints coefficients, `ord`
the order in which Python runs through sets; the conversion of the rate texts has been applied `times` times. -/
structure GasLinesFit (width : ℕ) (m : Mechanism) (num : ℚ → Str) (ord : SetOrder) (cores : Option ℕ) (times : ℕ)
    (date : Str) : Prop where
  rates : LinesWithin width ((Rl.writesOf .fortran).flatten ++
    writeRatesF ((convertTable (Rl.convertOf .fortran))^[times] m.tables.rate) cores)
  reactants : ∀ P, writeReactantsF m.tables.gen m.equations.toNat cores = .ok P →
    LinesWithin width (fileText reactantsFLayout num date m.tables.species.length m.equations.toNat P)
  tendency : LinesWithin width (fileText lossGainFLayout num date m.tables.species.length m.equations.toNat
    (writeLossGainF m.tables.gen m.tables.species.length cores))
  jacobian : ∀ P, writeJacobianF m.tables.gen ord m.tables.species.length cores = .ok P →
    LinesWithin width (fileText jacobianFLayout num date m.tables.species.length m.equations.toNat P)

end Spec

/-- One reactant, or two that are different. -/
theorem bimolecular_cases {q : RawEqn} (h : Bimolecular q) :
    chemReactants q = [] ∨ (∃ c a, (c = 1 ∨ c = 2) ∧ chemReactants q = [(c, a)]) ∨
      ∃ a b, chemReactants q = [(1, a), (1, b)] := by
  obtain ⟨h1, h2⟩ := h
  have pos : ∀ l : List (ℚ × Str), (∀ p ∈ l, p.1 = 1 ∨ p.1 = 2) → 0 ≤ (l.map (·.1)).sum := by
    intro l hl
    refine List.sum_nonneg ?_
    intro x hx
    obtain ⟨p, hp, rfl⟩ := List.mem_map.1 hx
    rcases hl p hp with h | h <;> rw [h] <;> norm_num
  match hq : chemReactants q with
  | [] => exact .inl rfl
  | [(c, a)] =>
    rw [hq] at h1
    exact .inr (.inl ⟨c, a, h1 (c, a) (by simp), rfl⟩)
  | (c, a) :: (c', b) :: l =>
    rw [hq] at h1 h2
    simp only [List.map_cons, List.sum_cons] at h2
    have hc : c = 1 ∨ c = 2 := h1 (c, a) (by simp)
    have hc' : c' = 1 ∨ c' = 2 := h1 (c', b) (by simp)
    have hl := pos l (fun p hp => h1 p (by simp [hp]))
    have e1 : c = 1 := by rcases hc with h | h <;> rcases hc' with h' | h' <;> linarith
    have e2 : c' = 1 := by rcases hc' with h' | h' <;> linarith
    subst e1 e2
    match hl' : l with
    | [] => exact .inr (.inr ⟨a, b, rfl⟩)
    | (c2, d) :: l' =>
      exfalso
      have := pos l' (fun p hp => h1 p (by simp [hp]))
      simp only [List.map_cons, List.sum_cons] at h2
      have hc2 : c2 = 1 ∨ c2 = 2 := h1 (c2, d) (by simp)
      rcases hc2 with h | h <;> linarith

theorem small_of_bimolecular {qs : List RawEqn} {q : RawEqn} {e : ℕ} (hq : qs[e]? = some q) (hb : Bimolecular q)
    {ord : SetOrder} (ho : ord.Valid) {x : Str} (hx : x ∈ ord (reactantsOf (build qs).gen e)) :
    Small (build qs).gen e (ord (reactantsOf (build qs).gen e)) := by
  have hr := reactantsOf_build qs hq
  have hc : ∀ n ∈ names (nonHv q.reactants), lossCoef (build qs).gen n e = .ok (coef (nonHv q.reactants) n) :=
    fun n hn => lossCoef_build hq hn
  rw [hr] at hx ⊢
  obtain ⟨hnd, hmem⟩ := ho (names (nonHv q.reactants))
  have single : ∀ a, (∀ y ∈ names (nonHv q.reactants), y = a) → ord (names (nonHv q.reactants)) = [a] := by
    intro a ha
    have hall : ∀ y ∈ ord (names (nonHv q.reactants)), y = a := fun y hy => ha y ((hmem y).1 hy)
    match hl : ord (names (nonHv q.reactants)) with
    | [] => rw [hl] at hx; simp at hx
    | [y] => rw [hl] at hall; rw [hall y (by simp)]
    | y :: z :: l =>
      rw [hl] at hall hnd
      have h1 := hall y (by simp)
      have h2 := hall z (by simp)
      rw [h1, h2] at hnd
      simp at hnd
  have hcr : chemReactants q = nonHv q.reactants := rfl
  rcases bimolecular_cases hb with h0 | ⟨c, a, hca, h0⟩ | ⟨a, b, h0⟩
  · rw [hcr] at h0
    have := (hmem x).1 hx
    rw [h0] at this
    simp [names] at this
  · rw [hcr] at h0
    refine .inl ⟨a, single a (by rw [h0]; simp [names]), ?_⟩
    intro c' hc'
    rw [hc a (by rw [h0]; simp [names]), h0] at hc'
    have : c' = c := by
      have := Except.ok.inj hc'
      simp [coef] at this
      exact this.symm
    rw [this]
    exact hca
  · rw [hcr] at h0
    by_cases hab : a = b
    · subst hab
      refine .inl ⟨a, single a (by rw [h0]; simp [names]), ?_⟩
      intro c' hc'
      rw [hc a (by rw [h0]; simp [names]), h0] at hc'
      right
      have := Except.ok.inj hc'
      rw [← this]
      simp [coef]
      norm_num
    · have ha : lossCoef (build qs).gen a e = .ok 1 := by
        rw [hc a (by rw [h0]; simp [names]), h0]
        simp [coef, Ne.symm hab]
      have hb' : lossCoef (build qs).gen b e = .ok 1 := by
        rw [hc b (by rw [h0]; simp [names]), h0]
        simp [coef, hab]
      have hp : (ord (names (nonHv q.reactants))).Perm [a, b] := by
        refine (List.perm_ext_iff_of_nodup hnd (by simp [hab])).2 ?_
        intro y
        rw [hmem y, h0]
        simp [names]
      rcases List.perm_pair.1 hp with h | h
      · exact .inr ⟨a, b, hab, h, ha, hb'⟩
      · exact .inr ⟨b, a, Ne.symm hab, h, hb', ha⟩

/-! ### C74 -/

/-- **C74**, `Reactants_conc.f90`: with at most `R` reactants in a reaction and coefficients of at most `w`
characters the lines fit if `R * (11 + w) ≤ 106`. -/
theorem C74_reactants {text : Str} {m : Mechanism} (h : extractMechanism text = .ok m) {qs : List RawEqn}
    (hq : Reads text m.equations.toNat qs) (hs : m.tables.species.length ≤ 99999) (hr : m.equations.toNat ≤ 99999)
    {num : ℚ → Str} (hn : ∀ q, '\n' ∉ num q) {R w : ℕ} (hR : R * (11 + w) ≤ 106)
    (hlen : ∀ q ∈ qs, (chemReactants q).length ≤ R)
    (hw : ∀ q ∈ qs, ∀ s ∈ names (chemReactants q), coef (chemReactants q) s ≠ 1 →
      (num (coef (chemReactants q) s)).length ≤ w)
    {date : Str} (hd : '\n' ∉ date) (hd' : date.length ≤ 100) {cores : Option ℕ} {P : List (Line ℕ)}
    (hP : writeReactantsF m.tables.gen m.equations.toNat cores = .ok P) :
    LinesWithin 132 (fileText reactantsFLayout num date m.tables.species.length m.equations.toNat P) := by
  obtain ⟨hb, hl⟩ := extract_tables h hq
  have get : ∀ e < m.equations.toNat, ∃ q, qs[e]? = some q ∧ q ∈ qs := by
    intro e he
    rw [← hl] at he
    exact ⟨qs[e], List.getElem?_eq_getElem he, List.getElem_mem he⟩
  refine reactantsF_width (extract_fits h) hs hr hn hR ?_ ?_ hd hd' hP
  · intro e he
    obtain ⟨q, hqe, hqm⟩ := get e he
    rw [hb, reactantsOf_build qs hqe]
    show (List.map _ _).length ≤ R
    rw [List.length_map]
    exact hlen q hqm
  · intro e he s hs' c hc hc1
    obtain ⟨q, hqe, hqm⟩ := get e he
    rw [hb, reactantsOf_build qs hqe] at hs'
    rw [hb, lossCoef_build hqe hs'] at hc
    have hc := Except.ok.inj hc
    subst hc
    exact hw q hqm s hs' hc1

/-- **C74**, `Loss_Gain.f90`: five terms are written on a line; with coefficients of at most nine characters they
fit, however many reactions a species takes part in. -/
theorem C74_tendency {text : Str} {m : Mechanism} (h : extractMechanism text = .ok m)
    (hs : m.tables.species.length ≤ 99999) (hr : m.equations.toNat ≤ 99999) {num : ℚ → Str}
    (hn : ∀ q, '\n' ∉ num q) (h1 : (num 1).length ≤ 3)
    (hw : ∀ s e c, cell m.tables.loss s e = some c ∨ cell m.tables.gain s e = some c → c ≠ 1 →
      (num (c + 1)).length ≤ 9)
    {date : Str} (hd : '\n' ∉ date) (hd' : date.length ≤ 100) (cores : Option ℕ) :
    LinesWithin 132 (fileText lossGainFLayout num date m.tables.species.length m.equations.toNat
      (writeLossGainF m.tables.gen m.tables.species.length cores)) := by
  obtain ⟨qs, -, hb, -⟩ := extract_reads h
  refine lossGainF_width (extract_fits h) hs hr hn h1 ?_ ?_ hd hd' cores
  · intro s p hp
    refine hw s p.1 p.2 (.inl (Dict.get?_eq_some_of_mem ?_ hp))
    rw [hb]
    exact innerNodup_build_loss qs s
  · intro s p hp
    refine hw s p.1 p.2 (.inr (Dict.get?_eq_some_of_mem ?_ hp))
    rw [hb]
    exact innerNodup_build_gain qs s

/-- **C74**, `Jacobian.f90`: four terms are written on a line; they fit if at most two molecules react in every
reaction. -/
theorem C74_jacobian {text : Str} {m : Mechanism} (h : extractMechanism text = .ok m) {qs : List RawEqn}
    (hq : Reads text m.equations.toNat qs) (hs : m.tables.species.length ≤ 99999) (hr : m.equations.toNat ≤ 99999)
    {num : ℚ → Str} (hn : ∀ q, '\n' ∉ num q) (h1 : (num 1).length ≤ 3) (h2 : (num 2).length ≤ 3)
    (hbi : ∀ q ∈ qs, Bimolecular q) {ord : SetOrder} (ho : ord.Valid)
    {date : Str} (hd : '\n' ∉ date) (hd' : date.length ≤ 100) {cores : Option ℕ} {P : List (Line (ℕ × ℕ))}
    (hP : writeJacobianF m.tables.gen ord m.tables.species.length cores = .ok P) :
    LinesWithin 132 (fileText jacobianFLayout num date m.tables.species.length m.equations.toNat P) := by
  obtain ⟨hb, hl⟩ := extract_tables h hq
  refine jacobianF_width (extract_fits h) hs hr hn h1 h2 ?_ hd hd' hP
  intro e he x hx
  rw [← hl] at he
  rw [hb] at hx ⊢
  exact small_of_bimolecular (List.getElem?_eq_getElem he) (hbi _ (List.getElem_mem he)) ho hx

/-- **C74**, `Rate_coefficients.f90` from the declarations to the end: the fixed lines fit, and the line of a
reaction fits if its converted rate text has at most 107 characters. -/
theorem C74_rates {text : Str} {m : Mechanism} (h : extractMechanism text = .ok m) {qs : List RawEqn}
    (hq : Reads text m.equations.toNat qs) (hr : m.equations.toNat ≤ 99999) {times : ℕ}
    (hlen : ∀ q ∈ qs, ((Rl.convertOf .fortran)^[times] q.rate).length ≤ 107) (cores : Option ℕ) :
    LinesWithin 132 ((Rl.writesOf .fortran).flatten ++
      writeRatesF ((convertTable (Rl.convertOf .fortran))^[times] m.tables.rate) cores) := by
  obtain ⟨hb, hl⟩ := extract_tables h hq
  rw [linesWithin_iff]
  refine (Step.append0 (by decide +kernel) (writeRatesF_step ?_ cores)).1
  rw [rate_table h hq, iterate_table]
  intro p hp
  have hsp := spaceless_table (rates_spaceless hq) (f := (Rl.convertOf .fortran)^[times])
    (fun s hs => convertOf_spaceless .fortran times s hs) p hp
  obtain ⟨i, hi, rfl⟩ := List.mem_mapIdx.1 hp
  refine ⟨by show i + 1 ≤ 99999; omega, hlen _ (List.getElem_mem hi), fun hc => ?_⟩
  exact absurd (hsp _ hc) (by decide)

/-- **C74**, `Partitioning.f90`: all lines fit as long as the numbers in it have at most nine digits. -/
theorem C74_partition {date : Str} (hd : '\n' ∉ date) (hd' : date.length ≤ 100) {L : Aerosol.Layout} {total : ℕ}
    (ht : total < 10 ^ 9) (hb : L.numBins < 10 ^ 9) (hs : L.numSpecies < 10 ^ 9) (hc : L.numCond + 1 < 10 ^ 9)
    (hi : ∀ i ∈ L.incl, i + 1 < 10 ^ 9) (hil : L.incl.length < 10 ^ 9) :
    LinesWithin 132 (Ft.partText date L total) := by
  rw [linesWithin_iff]
  have e : Ft.partText date L total = ((Ft.partLines date L total).map (fun l => l ++ ['\n'])).flatten := by
    unfold Ft.partText
    rw [List.flatMap_def]
  rw [e]
  refine (Step.flatten ?_).1
  intro x hx
  obtain ⟨l, hl, rfl⟩ := List.mem_map.1 hx
  have hρ : ∀ h, (digits (Ft.holes L total h)).length ≤ 9 := by
    intro h
    refine digits_le (by decide) ?_
    cases h <;> show _ < _ <;> simp only [Ft.holes] <;> omega
  have hok : ∀ l ∈ Ft.partTop ++ Ft.partHead ++ Ft.partFoot, pieceOk l = true :=
    List.all_eq_true.1 pieceOk_sources
  have key : '\n' ∉ l ∧ l.length ≤ 132 := by
    unfold Ft.partLines at hl
    simp only [List.mem_append, List.mem_map, List.mem_cons] at hl
    rcases hl with ((⟨p, hp, rfl⟩ | rfl | ⟨p, hp, rfl⟩) | ⟨p, hp, rfl⟩) | ⟨p, hp, rfl⟩
    · exact piece_step hρ (hok p (by simp [hp]))
    · unfold Ft.createdLine
      simp only [List.mem_append, not_or, List.length_append, List.length_cons, List.length_nil]
      exact ⟨⟨⟨by decide +kernel, hd⟩, by decide⟩, by omega⟩
    · exact piece_step hρ (hok p (by simp [hp]))
    · have hm := List.mem_zipIdx' hp
      have a1 : (digits (p.1 + 1)).length ≤ 9 := digits_le (by decide) (hi _ (hm.2 ▸ List.getElem_mem _))
      have a2 : (digits (p.2 + 1)).length ≤ 9 := digits_le (by decide) (by have := hm.1; omega)
      unfold Ft.gasLine
      simp only [List.mem_append, not_or, List.length_append, List.length_cons, List.length_nil]
      exact ⟨⟨⟨⟨⟨by decide +kernel, digits_plain _⟩, by decide +kernel⟩, digits_plain _⟩, by decide +kernel⟩, by omega⟩
    · exact piece_step hρ (hok p (by simp [hp]))
  exact Step.ends key.1 (by omega)

/-- **C74**: the lines of all Fortran gas files of a mechanism have at most 132 characters if at most two molecules
react in each reaction, the converted rate texts have at most 107 characters and the printed coefficients at most
nine.  Missing for the full statement: mechanisms with more reactants or longer rates, for which it is false
(`C74_false`). -/
theorem C74_partial {text : Str} {m : Mechanism} (h : extractMechanism text = .ok m) {qs : List RawEqn}
    (hq : Reads text m.equations.toNat qs) (hs : m.tables.species.length ≤ 99999) (hr : m.equations.toNat ≤ 99999)
    {num : ℚ → Str} (hn : ∀ q, '\n' ∉ num q) (h1 : (num 1).length ≤ 3) (h2 : (num 2).length ≤ 3)
    (hbi : ∀ q ∈ qs, Bimolecular q)
    (hw : ∀ s e c, cell m.tables.loss s e = some c ∨ cell m.tables.gain s e = some c → c ≠ 1 →
      (num (c + 1)).length ≤ 9)
    {times : ℕ} (hlen : ∀ q ∈ qs, ((Rl.convertOf .fortran)^[times] q.rate).length ≤ 107)
    {ord : SetOrder} (ho : ord.Valid) {date : Str} (hd : '\n' ∉ date) (hd' : date.length ≤ 100) (cores : Option ℕ) :
    GasLinesFit 132 m num ord cores times date where
  rates := C74_rates h hq hr hlen cores
  reactants P hP := by
    refine C74_reactants h hq hs hr hn (R := 2) (w := 3) (by decide) ?_ ?_ hd hd' hP
    · intro q hqm
      rcases bimolecular_cases (hbi q hqm) with h | ⟨c, a, -, h⟩ | ⟨a, b, h⟩ <;> rw [h] <;> simp
    · intro q hqm s hsm h1'
      have : coef (chemReactants q) s = 2 := by
        rcases bimolecular_cases (hbi q hqm) with h | ⟨c, a, hc, h⟩ | ⟨a, b, h⟩ <;> rw [h] at hsm h1' ⊢
        · simp [names] at hsm
        · simp [names] at hsm
          subst hsm
          simp [coef] at h1' ⊢
          exact hc.resolve_left h1'
        · simp only [names, List.map_cons, List.map_nil, List.mem_cons, List.not_mem_nil, or_false] at hsm
          by_cases hab : a = b
          · subst hab
            rw [or_self] at hsm
            subst hsm
            simp [coef]
            norm_num
          · rcases hsm with rfl | rfl
            · simp [coef, Ne.symm hab] at h1'
            · simp [coef, hab] at h1'
      rw [this]
      exact h2
  tendency := C74_tendency h hs hr hn h1 hw hd hd' cores
  jacobian P hP := C74_jacobian h hq hs hr hn h1 h2 hbi ho hd hd' hP

/-- The full statement: the lines fit for every mechanism. -/
def C74_Statement : Prop :=
  ∀ text m, extractMechanism text = .ok m → ∀ (num : ℚ → Str) (ord : SetOrder) (cores : Option ℕ) (times : ℕ) (date : Str),
    (∀ q, '\n' ∉ num q ∧ (num q).length ≤ 3) → ord.Valid → '\n' ∉ date → date.length ≤ 100 →
    GasLinesFit 132 m num ord cores times date

/-- One reaction with 23 reactants. -/
def wideText : Str := "{1.}A+B+C+D+E+F+G+H+I+J+K+L+N+P+Q+R+S+T+U+V+W+X+Y=Z:1.0;".toList

def wideTables : Tables := match extractMechanism wideText with
  | .ok m => m.tables
  | .error _ => build []

theorem wide_parses : extractMechanism wideText = .ok ⟨wideTables, 1⟩ := by decide +kernel

/-- The text of `Reactants_conc.f90`. -/
def wideReactants : Str := match writeReactantsF wideTables.gen 1 none with
  | .ok P => fileText reactantsFLayout shortNum [] 24 1 P
  | .error _ => []

/-- **C74** fails: nothing breaks the lines of `Reactants_conc.f90`, so a reaction with many reactants gets a line
that is too long. -/
theorem C74_false : ¬ C74_Statement := by
  intro h
  have hv : SetOrder.Valid List.dedup := fun l => ⟨List.nodup_dedup l, fun x => List.mem_dedup⟩
  have hnum : ∀ q, '\n' ∉ shortNum q ∧ (shortNum q).length ≤ 3 := by
    intro q
    unfold shortNum
    split
    · decide +kernel
    · split
      · decide +kernel
      · split <;> decide +kernel
  have hf := (h wideText _ wide_parses shortNum List.dedup none 1 [] hnum hv (by simp) (by decide)).reactants
  have hlong : ¬ LinesWithin 132 wideReactants := by rw [linesWithin_iff]; decide +kernel
  have hspecies : wideTables.species.length = 24 := by decide +kernel
  unfold wideReactants at hlong
  split at hlong
  · rename_i P hP
    refine hlong ?_
    have := hf P hP
    rwa [hspecies] at this
  · exact hlong (by rw [linesWithin_iff]; decide +kernel)

/-- The hypotheses of `C74_partial` hold for `radicalText`. -/
example : GasLinesFit 132 ⟨build radicalReactions, 2⟩ shortNum List.dedup (some 2) 2 "2026-01-01 12:00:00".toList := by
  have hnum : ∀ q, '\n' ∉ shortNum q ∧ (shortNum q).length ≤ 3 := by
    intro q
    unfold shortNum
    split
    · decide +kernel
    · split
      · decide +kernel
      · split <;> decide +kernel
  refine C74_partial radical_parses radical_reads (by decide +kernel) (by decide +kernel) (fun q => (hnum q).1)
    (hnum 1).2 (hnum 2).2 ?_ ?_ ?_ (fun l => ⟨List.nodup_dedup l, fun x => List.mem_dedup⟩) (by decide +kernel)
    (by decide +kernel) (some 2)
  · have : radicalReactions.all (fun q => (chemReactants q).all (fun p => p.1 = 1 ∨ p.1 = 2) &&
        decide (((chemReactants q).map (·.1)).sum ≤ 2)) = true := by decide +kernel
    intro q hq
    have := List.all_eq_true.1 this q hq
    rw [Bool.and_eq_true, List.all_eq_true, decide_eq_true_eq] at this
    exact ⟨fun p hp => by simpa using this.1 p hp, this.2⟩
  · exact fun s e c _ _ => (hnum _).2.trans (by decide)
  · have : radicalReactions.all (fun q => decide (((Rl.convertOf .fortran)^[2] q.rate).length ≤ 107)) = true := by
      decide +kernel
    exact fun q hq => of_decide_eq_true (List.all_eq_true.1 this q hq)

/-- A layout with three condensing species among five. -/
example : LinesWithin 132 (Ft.partText "2026-01-01".toList ⟨2, 5, 3, [0, 2, 4]⟩ 11) :=
  C74_partition (by decide +kernel) (by decide +kernel) (by decide) (by decide) (by decide) (by decide) (by decide) (by decide)

end PyBox

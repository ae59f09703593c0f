import Verif.Model.GzTool
import Verif.Props.GZ

/-! Property C191: the program `gz`. -/

namespace Xdyn.GzTool

open Xdyn.GZ Xdyn.Config

/-- Options that a user gives to compute a curve. -/
structure Valid (o : Options) : Prop where
  stl : o.stl ≠ []
  yaml : o.yaml ≠ []
  step : 0 < o.dphi
  amplitude : o.dphi ≤ o.phiMax

theorem valid_iff (o : Options) : Valid o ↔ invalid o = false := by
  constructor
  · rintro ⟨h1, h2, h3, h4⟩
    simp [invalid, Options.empty, h1, h2, h3.ne', not_le.2 h3, not_lt.2 h4]
  · intro h
    simp only [invalid] at h
    split_ifs at h with a1 a2 a3 a4 a5
    exact ⟨by simpa using a2, by simpa using a3, not_le.1 a4, not_lt.1 a5⟩

/-- A hull that floats: lighter than the water it can displace; at each heel of `[-a, a]` (rad), without trim, the resultant is a continuous function of the depth, downwards at one end of
the interval in which the depth is searched and upwards at the other one; the search of Newton-Raphson ends. -/
structure Floats (b : Body) (a : ℝ) : Prop where
  light : b.mass ≤ b.rho * (b.emerged + b.immersed)
  continuous : ∀ phi, |phi| ≤ a → Continuous fun z => (b.resultant ⟨z, phi, 0⟩).z
  ordered : ∀ phi, |phi| ≤ a → (b.bounds phi).min ≤ (b.bounds phi).max
  top : ∀ phi, |phi| ≤ a → 0 ≤ (b.resultant ⟨(b.bounds phi).min, phi, 0⟩).z
  bottom : ∀ phi, |phi| ≤ a → (b.resultant ⟨(b.bounds phi).max, phi, 0⟩).z ≤ 0
  newton : ∀ z, ∃ x, newtonRaphson ⟨z, 0, 0⟩ b.resultant b.stiffness 100 (1/10^6) = .ok x

/-- The lever `g` is the one of the hull heeled at `phi`, without trim, at a depth where weight and buoyancy balance (within 1E-10 m). -/
def LeverAt (b : Body) (phi g : ℝ) : Prop :=
  ∃ z ze, (b.resultant ⟨ze, phi, 0⟩).z = 0 ∧ |z - ze| ≤ 1/10^10 ∧ g = b.lever ⟨z, phi, 0⟩

theorem curve_floats {b : Body} {a : ℝ} (ha : 0 ≤ a) (hb : Floats b a) : ∃ N, ∀ fuel, N ≤ fuel → curve b fuel = .ok (some 0) := by
  have h0 : |(0 : ℝ)| ≤ a := by simpa using ha
  obtain ⟨N, r, h1, -⟩ := zeq_equilibrium _ (hb.continuous 0 h0) (b.bounds 0) (hb.ordered 0 h0) (hb.top 0 h0) (hb.bottom 0 h0)
  obtain ⟨x, hx⟩ := hb.newton r
  refine ⟨N, fun fuel hf => ?_⟩
  have h2 : getXeq b.resultant b.stiffness b.bounds fuel = .ok (some ⟨r, 0, 0⟩) := by
    simp only [getXeq, h1 fuel hf]
    simp only [hx]
  simp [curve, not_lt.2 hb.light, h2]

theorem gz_floats {b : Body} {a : ℝ} (hb : Floats b a) (phi : ℝ) (hp : |phi| ≤ a) :
    ∃ N g, (∀ fuel, N ≤ fuel → gz b fuel 0 phi = .ok (some g)) ∧ LeverAt b phi g := by
  obtain ⟨N, r, h1, ze, -, -, h2, h3⟩ := zeq_equilibrium _ (hb.continuous phi hp) (b.bounds phi) (hb.ordered phi hp) (hb.top phi hp) (hb.bottom phi hp)
  refine ⟨N, b.lever ⟨r, phi, 0⟩, fun fuel hf => ?_, r, ze, h2, h3, rfl⟩
  simp only [gz, h1 fuel hf]

theorem rows_floats {b : Body} {a : ℝ} (hb : Floats b a) : ∀ (phis : List ℝ), (∀ phi ∈ phis, |phi| ≤ a) →
    ∃ N rows, (∀ fuel, N ≤ fuel → writeRows (gz b fuel 0) phis = some (rows, .ok ())) ∧
      List.Forall₂ (fun phi (r : ℝ × ℝ) => r.1 = phi * 180 / Real.pi ∧ LeverAt b phi r.2) phis rows
  | [], _ => ⟨0, [], fun _ _ => rfl, .nil⟩
  | phi :: phis, h => by
    obtain ⟨N, g, h1, h2⟩ := gz_floats hb phi (h phi (by simp))
    obtain ⟨N', rows, h3, h4⟩ := rows_floats hb phis (fun p hp => h p (by simp [hp]))
    refine ⟨max N N', (phi * 180 / Real.pi, g) :: rows, fun fuel hf => ?_, .cons ⟨rfl, h2⟩ h4⟩
    simp only [writeRows, h1 fuel (le_trans (le_max_left _ _) hf), h3 fuel (le_trans (le_max_right _ _) hf)]

theorem amplitude_of_table (l : List ℝ) (A : ℝ) (h0 : l[0]? = some (-A)) (n : Nat) (hn : l.length = n + 1) (h1 : l[n]? = some A) (hs : l.Pairwise (· < ·)) :
    ∀ phi ∈ l, |phi| ≤ A := by
  intro phi hp
  obtain ⟨i, hi, rfl⟩ := List.getElem_of_mem hp
  rw [List.getElem?_eq_getElem (by omega)] at h0 h1
  have e0 := Option.some.inj h0
  have e1 := Option.some.inj h1
  rw [List.pairwise_iff_getElem] at hs
  rw [abs_le]
  constructor
  · rcases Nat.eq_zero_or_pos i with rfl | h
    · exact e0.ge
    · have := hs 0 i (by omega) hi h; rw [e0] at this; exact this.le
  · rcases (show i ≤ n by omega).eq_or_lt with rfl | h
    · exact e1.le
    · have := hs i n hi (by omega) h; rw [e1] at this; exact this.le

/-- **C191** For valid options and a hull that floats, the program ends with status 0 and without error message, and writes the title and 2N+1 lines, N being the integer nearest to phi_max/dphi: in degrees, the
angles -phi_max, the multiples of dphi in between, and phi_max, each one with the righting lever at this heel, at the depth of equilibrium without trim. Columns are separated by tabs on the terminal and by
semicolons in a file. -/
theorem gz_table (sim : Options → Except Err Body) (o : Options) (ho : Valid o) (b : Body) (hs : sim o = .ok b) (hb : Floats b (o.phiMax * Real.pi / 180))
    (N : Nat) (hN : |o.phiMax / o.dphi - N| < 1/2) (hint : 2 * N ≤ 2147483647) (debug : Bool) :
    ∃ fuel₀ rows, (∀ fuel, fuel₀ ≤ fuel → gzMain sim fuel (.options o false debug) =
        some ⟨.code 0, some ⟨if o.csv = [] then '\t' else ';', true, rows⟩, false⟩) ∧ rows.length = 2 * N + 1 ∧
      ∀ (i : Nat) (hi : i < rows.length), rows[i].1 = (if i = 0 then -o.phiMax else if i = 2 * N then o.phiMax else ((i : ℝ) - N) * o.dphi) ∧
        LeverAt b (rows[i].1 * Real.pi / 180) rows[i].2 := by
  have hpi := Real.pi_pos
  have hpi0 := hpi.ne'
  have hA : 0 < o.phiMax := lt_of_lt_of_le ho.step ho.amplitude
  have hd : 0 < o.dphi * Real.pi / 180 := by have := ho.step; positivity
  have hle : o.dphi * Real.pi / 180 ≤ o.phiMax * Real.pi / 180 := by have := ho.amplitude; gcongr
  have hN' : |o.phiMax * Real.pi / 180 / (o.dphi * Real.pi / 180) - N| < 1/2 := by
    have e : o.phiMax * Real.pi / 180 / (o.dphi * Real.pi / 180) = o.phiMax / o.dphi := by
      have := ho.step.ne'
      field_simp
    rwa [e]
  obtain ⟨l, h1, h2, h3, h4, h5, h6, -⟩ := getPhi_spec _ _ hd hle N hN' hint
  obtain ⟨N1, c1⟩ := curve_floats (by positivity) hb
  obtain ⟨N2, rows, r1, r2⟩ := rows_floats hb l (amplitude_of_table l _ h3 _ h2 h4 h6)
  have hlen := r2.length_eq
  refine ⟨max N1 N2, rows, fun fuel hf => ?_, by omega, fun i hi => ?_⟩
  · simp only [gzMain, (valid_iff o).1 ho, Bool.or_false, Bool.false_eq_true, if_false, compute, hs, c1 fuel (le_trans (le_max_left _ _) hf), h1,
      r1 fuel (le_trans (le_max_right _ _) hf), ended, List.isEmpty_iff]
  · have hil : i < l.length := by omega
    have hr := List.forall₂_iff_get.1 r2
    obtain ⟨q1, q2⟩ := hr.2 i hil hi
    simp only [List.get_eq_getElem] at q1 q2
    have hback : rows[i].1 * Real.pi / 180 = l[i] := by rw [q1]; field_simp
    rw [hback]
    refine ⟨?_, q2⟩
    rw [q1]
    rcases Nat.eq_zero_or_pos i with rfl | hpos
    · rw [List.getElem?_eq_getElem hil] at h3
      rw [Option.some.inj h3, if_pos rfl]
      field_simp
    · rw [if_neg hpos.ne']
      split_ifs with hlast
      · subst hlast
        rw [List.getElem?_eq_getElem hil] at h4
        rw [Option.some.inj h4]
        field_simp
      · have h7 := h5 i hpos (by omega)
        rw [List.getElem?_eq_getElem hil] at h7
        rw [Option.some.inj h7]
        field_simp

/-- **C191** Without valid options nothing is computed nor written; a message tells why, except when there is no option at all (the help is displayed). -/
theorem gz_refused (sim : Options → Except Err Body) (fuel : Nat) (o : Options) (ho : ¬ Valid o) (help debug : Bool) :
    ∃ message, gzMain sim fuel (.options o help debug) = some ⟨.code 0, none, message⟩ ∧
      (message = false ↔ o.dphi = 0 ∧ o.phiMax = 0 ∧ o.stl = [] ∧ o.yaml = [] ∧ o.csv = []) := by
  rw [valid_iff, Bool.not_eq_false] at ho
  refine ⟨!o.empty, by simp [gzMain, ho], ?_⟩
  simp [Options.empty, and_assoc]

/-- **C191** A body that is denser than water is refused: nothing is written and a message is displayed. -/
theorem gz_dense_body (sim : Options → Except Err Body) (fuel : Nat) (o : Options) (ho : Valid o) (b : Body) (hs : sim o = .ok b)
    (hb : b.rho * (b.emerged + b.immersed) < b.mass) (debug : Bool) :
    gzMain sim fuel (.options o false debug) = some ⟨.code 0, none, true⟩ := by
  simp only [gzMain, (valid_iff o).1 ho, Bool.or_false, Bool.false_eq_true, if_false, compute, hs, curve, if_pos hb, ended, GZ.invalidInput, Option.some.injEq]
  rfl

/-- Lines that are written before the heel where the lever cannot be computed. -/
theorem rows_until (f : ℝ → Except Err (Option ℝ)) (g : ℝ → ℝ) (e : Err) (phi : ℝ) (after : List ℝ) (hphi : f phi = .error e) :
    ∀ before : List ℝ, (∀ p ∈ before, f p = .ok (some (g p))) →
      writeRows f (before ++ phi :: after) = some (before.map fun p => (p * 180 / Real.pi, g p), .error e)
  | [], _ => by simp [writeRows, hphi]
  | p :: before, h => by
    simp only [List.cons_append, writeRows, h p (by simp), rows_until f g e phi after hphi before (fun q hq => h q (by simp [hq])), List.map_cons]

/-- **C191** When the lever cannot be computed at some heel, the lines of the heels before it are written and a message is displayed, but the status is still 0. -/
theorem gz_incomplete_table (sim : Options → Except Err Body) (fuel : Nat) (o : Options) (ho : Valid o) (b : Body) (hs : sim o = .ok b) (thetaEq : ℝ)
    (hc : curve b fuel = .ok (some thetaEq)) (before after : List ℝ) (phi : ℝ)
    (hphi : getPhi (o.dphi * Real.pi / 180) (o.phiMax * Real.pi / 180) = .ok (before ++ phi :: after))
    (g : ℝ → ℝ) (hg : ∀ p ∈ before, gz b fuel thetaEq p = .ok (some (g p))) (e : String) (he : gz b fuel thetaEq phi = .error (.throw e))
    (hw : e ≠ "WebSocketException") (debug : Bool) :
    gzMain sim fuel (.options o false debug) =
      some ⟨.code 0, some ⟨if o.csv = [] then '\t' else ';', true, before.map fun p => (p * 180 / Real.pi, g p)⟩, true⟩ := by
  simp only [gzMain, (valid_iff o).1 ho, Bool.or_false, Bool.false_eq_true, if_false, compute, hs, hc, hphi, rows_until _ g _ _ after he before hg, ended, List.isEmpty_iff,
    Cli.reported]
  simp [hw]

/-- **C191** (refuted) The exit status does not tell whether the curve was computed: whatever happens, unless boost refuses the command line or the behaviour is undefined, it is 0. -/
theorem gz_exit_refuted (sim : Options → Except Err Body) (fuel : Nat) (c : Cli.CommandLine Options) (r : Outcome) (h : gzMain sim fuel c = some r)
    (hc : c ≠ .refused) (hu : r.exit ≠ .undefined) : r.exit = .code 0 := by
  have he : ∀ w x, (ended w x).exit ≠ .undefined → (ended w x).exit = .code 0 := by
    intro w x
    rcases x with (_ | e) | x <;> simp [ended]
  unfold gzMain at h
  split at h
  · cases h; rfl
  · exact absurd rfl hc
  · split_ifs at h
    · cases h; rfl
    · unfold compute at h
      split at h
      · cases h; exact he _ _ hu
      · split at h
        · cases h; exact he _ _ hu
        · cases h
        · split at h
          · cases h; exact he _ _ hu
          · split at h
            · cases h
            · cases h; exact he _ _ hu

/-! ### A concrete case -/

/-- A hull whose resultant is `-(z + phi²)` and whose lever is `phi / 2`, which is searched between -10 and 10 m. -/
noncomputable def buoy : Body where
  resultant x := ⟨-(x.z + x.phi ^ 2), 0, -x.theta⟩
  lever x := x.phi / 2
  stiffness _ := ⟨-1, 0, 0, -1⟩
  bounds _ := ⟨-10, 10⟩
  rho := 1000
  emerged := 1
  immersed := 1
  mass := 900

theorem buoy_floats : Floats buoy (60 * Real.pi / 180) := by
  have hsq : ∀ phi : ℝ, |phi| ≤ 60 * Real.pi / 180 → phi ^ 2 ≤ 10 := by
    intro phi h
    have h2 : |phi| ≤ 2 := by linarith [Real.pi_lt_four]
    rw [← sq_abs]
    nlinarith [abs_nonneg phi]
  refine ⟨by norm_num [buoy], fun phi _ => ?_, fun _ _ => by norm_num [buoy], fun phi h => ?_, fun phi h => ?_, fun z => ?_⟩
  · simp only [buoy]; fun_prop
  · have := hsq phi h
    simp only [buoy]; linarith
  · simp only [buoy]; nlinarith
  · have key : ∀ n x xp, x.theta = 0 → x.phi = 0 → ∃ y, newtonLoop buoy.resultant buoy.stiffness (1/10^6 : ℝ) n x xp = .ok y := by
      intro n
      induction n with
      | zero => intro x xp _ _; exact ⟨x, rfl⟩
      | succ n ih =>
        intro x xp h1 h2
        simp only [newtonLoop]
        split_ifs with a1 a2 a3
        · exact ⟨x, rfl⟩
        · exfalso
          simp only [buoy] at a2
          norm_num at a2
        · exact ⟨x, rfl⟩
        · exact ih _ _ (by simp [newtonStep, buoy, h1]) h2
    exact key 100 _ _ rfl rfl

/-- The curve of this hull every 20 degrees up to 60: seven lines. -/
example : ∃ fuel₀ rows, (∀ fuel, fuel₀ ≤ fuel → gzMain (fun _ => .ok buoy) fuel (.options ⟨20, 60, ['a'], [['b']], []⟩ false false) =
    some ⟨.code 0, some ⟨'\t', true, rows⟩, false⟩) ∧ rows.length = 7 := by
  obtain ⟨f, rows, h1, h2, -⟩ := gz_table (fun _ => .ok buoy) ⟨20, 60, ['a'], [['b']], []⟩ ⟨by simp, by simp, by norm_num, by norm_num⟩ buoy rfl buoy_floats 3
    (by norm_num) (by norm_num) false
  exact ⟨f, rows, h1, h2⟩

end Xdyn.GzTool

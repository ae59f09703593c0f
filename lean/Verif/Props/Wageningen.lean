/-
C171, C172, C203: the propellers of the Wageningen B series.
-/
import Verif.Model.Wageningen
import Verif.Lemmas.Wageningen
import Verif.Spec.BSeries
import Mathlib.Tactic.IntervalCases
import Mathlib.Tactic.NormNum

namespace Xdyn.Forces

/-- Value of a polynomial of the B series. -/
noncomputable def sumOf (l : List (Monomial ℝ)) (Z : Nat) (A P j : ℝ) : ℝ :=
  l.foldl (fun acc m => acc + m.c * j ^ m.s * P ^ m.t * A ^ m.u * (Z : ℝ) ^ m.v) 0

theorem polynomial_num (l : List (Monomial ℝ)) (Z : Nat) (A P J : ℝ) :
    polynomial l Z A P (.num J) = .num (sumOf l Z A P (max (min J (3 / 2)) 0)) := rfl

example : ktTable.length = 39 ∧ kqTable.length = 47 := ⟨rfl, rfl⟩

/-- Accepted parameters -/
theorem checked {Z : Nat} {A : ℝ} (h : checkWageningen Z A = .ok ()) : (2 ≤ Z ∧ Z ≤ 7) ∧ 3 / 10 ≤ A ∧ A ≤ 21 / 20 := by
  unfold checkWageningen at h
  split_ifs at h with h1 h2
  push Not at h1 h2
  refine ⟨⟨by omega, by omega⟩, h2.1, ?_⟩
  have := h2.2
  norm_num at this ⊢
  exact this

/-- At rest, the thrust coefficient is at least 0.17. -/
theorem kt_rest {Z : Nat} {A P : ℝ} (hZ : 2 ≤ Z ∧ Z ≤ 7) (h2 : 1 / 2 ≤ P) (h3 : P ≤ 7 / 5) (h4 : 3 / 10 ≤ A) (h5 : A ≤ 21 / 20) :
    17 / 100 ≤ sumOf ktTable Z A P 0 := by
  obtain ⟨hl, hu⟩ := hZ
  interval_cases Z
  · refine le_of_le_of_eq (kt_rest_2 P A h2 h3 h4 h5) ?_
    simp only [sumOf, ktTable, terms, coeffT, expJT, expPDT, expAET, expZT, List.foldl_cons, List.foldl_nil]
    push_cast; ring
  · refine le_of_le_of_eq (kt_rest_3 P A h2 h3 h4 h5) ?_
    simp only [sumOf, ktTable, terms, coeffT, expJT, expPDT, expAET, expZT, List.foldl_cons, List.foldl_nil]
    push_cast; ring
  · refine le_of_le_of_eq (kt_rest_4 P A h2 h3 h4 h5) ?_
    simp only [sumOf, ktTable, terms, coeffT, expJT, expPDT, expAET, expZT, List.foldl_cons, List.foldl_nil]
    push_cast; ring
  · refine le_of_le_of_eq (kt_rest_5 P A h2 h3 h4 h5) ?_
    simp only [sumOf, ktTable, terms, coeffT, expJT, expPDT, expAET, expZT, List.foldl_cons, List.foldl_nil]
    push_cast; ring
  · refine le_of_le_of_eq (kt_rest_6 P A h2 h3 h4 h5) ?_
    simp only [sumOf, ktTable, terms, coeffT, expJT, expPDT, expAET, expZT, List.foldl_cons, List.foldl_nil]
    push_cast; ring
  · refine le_of_le_of_eq (kt_rest_7 P A h2 h3 h4 h5) ?_
    simp only [sumOf, ktTable, terms, coeffT, expJT, expPDT, expAET, expZT, List.foldl_cons, List.foldl_nil]
    push_cast; ring

/-- At rest, the torque coefficient is at least 0.014. -/
theorem kq_rest {Z : Nat} {A P : ℝ} (hZ : 2 ≤ Z ∧ Z ≤ 7) (h2 : 1 / 2 ≤ P) (h3 : P ≤ 7 / 5) (h4 : 3 / 10 ≤ A) (h5 : A ≤ 21 / 20) :
    7 / 500 ≤ sumOf kqTable Z A P 0 := by
  obtain ⟨hl, hu⟩ := hZ
  interval_cases Z
  · refine le_of_le_of_eq (kq_rest_2 P A h2 h3 h4 h5) ?_
    simp only [sumOf, kqTable, terms, coeffQ, expJQ, expPDQ, expAEQ, expZQ, List.foldl_cons, List.foldl_nil]
    push_cast; ring
  · refine le_of_le_of_eq (kq_rest_3 P A h2 h3 h4 h5) ?_
    simp only [sumOf, kqTable, terms, coeffQ, expJQ, expPDQ, expAEQ, expZQ, List.foldl_cons, List.foldl_nil]
    push_cast; ring
  · refine le_of_le_of_eq (kq_rest_4 P A h2 h3 h4 h5) ?_
    simp only [sumOf, kqTable, terms, coeffQ, expJQ, expPDQ, expAEQ, expZQ, List.foldl_cons, List.foldl_nil]
    push_cast; ring
  · refine le_of_le_of_eq (kq_rest_5 P A h2 h3 h4 h5) ?_
    simp only [sumOf, kqTable, terms, coeffQ, expJQ, expPDQ, expAEQ, expZQ, List.foldl_cons, List.foldl_nil]
    push_cast; ring
  · refine le_of_le_of_eq (kq_rest_6 P A h2 h3 h4 h5) ?_
    simp only [sumOf, kqTable, terms, coeffQ, expJQ, expPDQ, expAEQ, expZQ, List.foldl_cons, List.foldl_nil]
    push_cast; ring
  · refine le_of_le_of_eq (kq_rest_7 P A h2 h3 h4 h5) ?_
    simp only [sumOf, kqTable, terms, coeffQ, expJQ, expPDQ, expAEQ, expZQ, List.foldl_cons, List.foldl_nil]
    push_cast; ring

/-- A cubic whose slope is at most -0.01 between 0 and 1.5. -/
def Falling (f : ℝ → ℝ) : Prop :=
  ∃ c0 c1 c2 c3 : ℝ, (∀ j, f j = c0 + c1 * j + c2 * j ^ 2 + c3 * j ^ 3) ∧
    ∀ j, 0 ≤ j → j ≤ 3 / 2 → 1 / 100 ≤ -(c1 + 2 * c2 * j + 3 * c3 * j ^ 2)

theorem Falling.lt {f : ℝ → ℝ} (h : Falling f) {a b : ℝ} (h0 : 0 ≤ a) (hab : a ≤ b) (h1 : b ≤ 3 / 2) : (b - a) / 100 ≤ f a - f b := by
  obtain ⟨c0, c1, c2, c3, hf, hd⟩ := h
  have ea := hd a h0 (by linarith)
  have eb := hd b (by linarith) h1
  have em := hd ((a + b) / 2) (by linarith) (by linarith)
  have key : f a - f b - (b - a) / 100 = (b - a) / 6 * ((-(c1 + 2 * c2 * a + 3 * c3 * a ^ 2) - 1 / 100) +
      4 * (-(c1 + 2 * c2 * ((a + b) / 2) + 3 * c3 * ((a + b) / 2) ^ 2) - 1 / 100) + (-(c1 + 2 * c2 * b + 3 * c3 * b ^ 2) - 1 / 100)) := by
    rw [hf, hf]; ring
  have : 0 ≤ f a - f b - (b - a) / 100 := by
    rw [key]
    exact mul_nonneg (by linarith) (by linarith)
  linarith

theorem kt_cubic_2 (P A : ℝ) (h2 : 1 / 2 ≤ P) (h3 : P ≤ 7 / 5) (h4 : 3 / 10 ≤ A) (h5 : A ≤ 21 / 20) : Falling (sumOf ktTable 2 A P) := by
  refine ⟨(4398271/125000000 : ℝ) + (-1400949/62500000 : ℝ) * A + (-253607/5000000 : ℝ) * A ^ 2 + (243809/1250000 : ℝ) * P + (79057/500000 : ℝ) * P ^ 2 + (415437/1000000 : ℝ) * P ^ 2 * A + (-205399/25000000 : ℝ) * P ^ 2 * A ^ 2 + (-1881657/12500000 : ℝ) * P ^ 3 + (-583603/12500000 : ℝ) * P ^ 3 * A + (-36641/6250000 : ℝ) * P ^ 3 * A ^ 2 + (638407/100000000 : ℝ) * P ^ 6,
    (-140301/625000 : ℝ) + (109689/5000000 : ℝ) * A + (4651/125000 : ℝ) * A ^ 2 + (303413/2500000 : ℝ) * P + (-481497/1000000 : ℝ) * P * A + (-40913/6250000 : ℝ) * P ^ 2 + (21053/625000 : ℝ) * P ^ 3 + (-328787/250000000 : ℝ) * P ^ 6 + (2093/200000 : ℝ) * P ^ 6 * A ^ 2,
    (-59761/625000 : ℝ) + (-147581/1000000 : ℝ) * A + (854559/10000000 : ℝ) * A ^ 2 + (-215293/250000000 : ℝ) * P ^ 6 + (-40517/6250000 : ℝ) * P ^ 6 * A ^ 2,
    (-35033/15625000 : ℝ) + (10531/62500 : ℝ) * A + (-20179/400000 : ℝ) * A ^ 2 + (-12787/6250000 : ℝ) * P ^ 3 + (565229/2500000000 : ℝ) * P ^ 6 * A, ?_, ?_⟩
  · intro j
    simp only [sumOf, ktTable, terms, coeffT, expJT, expPDT, expAET, expZT, List.foldl_cons, List.foldl_nil]
    push_cast
    ring
  · intro j hj0 hj1
    refine le_of_le_of_eq (kt_slope_2 j P A hj0 hj1 h2 h3 h4 h5) ?_
    ring

theorem kt_cubic_3 (P A : ℝ) (h2 : 1 / 2 ≤ P) (h3 : P ≤ 7 / 5) (h4 : 3 / 10 ≤ A) (h5 : A ≤ 21 / 20) : Falling (sumOf ktTable 3 A P) := by
  refine ⟨(11639057/250000000 : ℝ) + (-1971879/62500000 : ℝ) * A + (-253607/5000000 : ℝ) * A ^ 2 + (2093953/10000000 : ℝ) * P + (79057/500000 : ℝ) * P ^ 2 + (415437/1000000 : ℝ) * P ^ 2 * A + (-616197/50000000 : ℝ) * P ^ 2 * A ^ 2 + (-1986873/12500000 : ℝ) * P ^ 3 + (-5737989/100000000 : ℝ) * P ^ 3 * A + (-329769/25000000 : ℝ) * P ^ 3 * A ^ 2 + (638407/100000000 : ℝ) * P ^ 6,
    (-2493911/10000000 : ℝ) + (329067/10000000 : ℝ) * A + (13953/250000 : ℝ) * A ^ 2 + (910239/5000000 : ℝ) * P + (-481497/1000000 : ℝ) * P * A + (-368217/25000000 : ℝ) * P ^ 2 + (63159/1250000 : ℝ) * P ^ 3 + (-2959083/1000000000 : ℝ) * P ^ 6 + (2093/200000 : ℝ) * P ^ 6 * A ^ 2,
    (-271263/2000000 : ℝ) + (-147581/1000000 : ℝ) * A + (854559/10000000 : ℝ) * A ^ 2 + (-139331/500000000 : ℝ) * P ^ 6 + (-40517/6250000 : ℝ) * P ^ 6 * A ^ 2,
    (-315297/62500000 : ℝ) + (10531/62500 : ℝ) * A + (-20179/400000 : ℝ) * A ^ 2 + (-38361/12500000 : ℝ) * P ^ 3 + (5087061/10000000000 : ℝ) * P ^ 6 * A, ?_, ?_⟩
  · intro j
    simp only [sumOf, ktTable, terms, coeffT, expJT, expPDT, expAET, expZT, List.foldl_cons, List.foldl_nil]
    push_cast
    ring
  · intro j hj0 hj1
    refine le_of_le_of_eq (kt_slope_3 j P A hj0 hj1 h2 h3 h4 h5) ?_
    ring

theorem kt_cubic_4 (P A : ℝ) (h2 : 1 / 2 ≤ P) (h3 : P ≤ 7 / 5) (h4 : 3 / 10 ≤ A) (h5 : A ≤ 21 / 20) : Falling (sumOf ktTable 4 A P) := by
  refine ⟨(3544537/62500000 : ℝ) + (-1228223/31250000 : ℝ) * A + (-253607/5000000 : ℝ) * A ^ 2 + (1118717/5000000 : ℝ) * P + (79057/500000 : ℝ) * P ^ 2 + (415437/1000000 : ℝ) * P ^ 2 * A + (-205399/12500000 : ℝ) * P ^ 2 * A ^ 2 + (-2092089/12500000 : ℝ) * P ^ 3 + (-745457/12500000 : ℝ) * P ^ 3 * A + (-36641/1562500 : ℝ) * P ^ 3 * A ^ 2 + (638407/100000000 : ℝ) * P ^ 6,
    (-710661/2500000 : ℝ) + (109689/2500000 : ℝ) * A + (4651/62500 : ℝ) * A ^ 2 + (303413/1250000 : ℝ) * P + (-481497/1000000 : ℝ) * P * A + (-40913/1562500 : ℝ) * P ^ 2 + (21053/312500 : ℝ) * P ^ 3 + (-328787/62500000 : ℝ) * P ^ 6 + (2093/200000 : ℝ) * P ^ 6 * A ^ 2,
    (-213061/1250000 : ℝ) + (-147581/1000000 : ℝ) * A + (854559/10000000 : ℝ) * A ^ 2 + (134213/250000000 : ℝ) * P ^ 6 + (-40517/6250000 : ℝ) * P ^ 6 * A ^ 2,
    (-35033/3906250 : ℝ) + (10531/62500 : ℝ) * A + (-20179/400000 : ℝ) * A ^ 2 + (-12787/3125000 : ℝ) * P ^ 3 + (565229/625000000 : ℝ) * P ^ 6 * A, ?_, ?_⟩
  · intro j
    simp only [sumOf, ktTable, terms, coeffT, expJT, expPDT, expAET, expZT, List.foldl_cons, List.foldl_nil]
    push_cast
    ring
  · intro j hj0 hj1
    refine le_of_le_of_eq (kt_slope_4 j P A hj0 hj1 h2 h3 h4 h5) ?_
    ring

/-- Up to four blades, the thrust coefficient decreases with the advance ratio. -/
theorem kt_falling {Z : Nat} {A P : ℝ} (hZ : 2 ≤ Z ∧ Z ≤ 4) (h2 : 1 / 2 ≤ P) (h3 : P ≤ 7 / 5) (h4 : 3 / 10 ≤ A) (h5 : A ≤ 21 / 20) :
    Falling (sumOf ktTable Z A P) := by
  obtain ⟨hl, hu⟩ := hZ
  interval_cases Z
  · exact kt_cubic_2 P A h2 h3 h4 h5
  · exact kt_cubic_3 P A h2 h3 h4 h5
  · exact kt_cubic_4 P A h2 h3 h4 h5

/-! ### The force -/

/-- Force of a propeller that turns. -/
theorem force_turning {y : BSeries} {rho u rpm pd : ℝ} {commands : List (String × ℝ)} (hr : commands.lookup "rpm" = some rpm)
    (hp : commands.lookup "P/D" = some pd) (hn : rpm ≠ 0) (hD : y.diameter ≠ 0) {J : ℝ}
    (hJ : J * (rpm / (2 * Real.pi) * y.diameter) = (1 - y.wake) * |u|) :
    bSeriesForce y rho u commands = .ok
      (.num ((1 - y.deduction) * rho * (rpm / (2 * Real.pi)) ^ 2 * y.diameter ^ 4 * sumOf ktTable y.blades y.areaRatio pd (max (min J (3 / 2)) 0)),
       .num ((if y.clockwise then -1 else 1) * y.efficiency * rho * (rpm / (2 * Real.pi)) ^ 2 * y.diameter ^ 5 *
        sumOf kqTable y.blades y.areaRatio pd (max (min J (3 / 2)) 0))) := by
  have hpi := Real.pi_pos
  have hn' : rpm / (2 * Real.pi) ≠ 0 := div_ne_zero hn (by positivity)
  have hadv : advanceRatio y.wake u (rpm / (2 * Real.pi)) y.diameter = .num J := by
    unfold advanceRatio divide
    rw [if_neg hn']
    simp only [if_neg hD, Ratio.num.injEq]
    rw [div_div, ← hJ, mul_div_assoc, div_self (mul_ne_zero hn' hD), mul_one]
  unfold bSeriesForce command
  rw [hr, hp]
  simp only [bind, Except.bind, pure, Except.pure, propeller, hadv, polynomial_num, Except.ok.injEq, Prod.mk.injEq, Ratio.num.injEq]
  constructor <;> ring

/-- **C171** When the ship does not move and the propeller turns (either way): for every accepted number of blades and area ratio and every pitch ratio of
the B series, the thrust pushes ahead, with a coefficient of at least 0.17, and the torque has a coefficient of at least 0.014, negative for a propeller that
turns clockwise, positive otherwise. -/
theorem bollard_pull (y : BSeries) (hy : checkWageningen y.blades y.areaRatio = .ok ()) (rho rpm pd : ℝ) (commands : List (String × ℝ))
    (hr : commands.lookup "rpm" = some rpm) (hp : commands.lookup "P/D" = some pd) (hpd : 1 / 2 ≤ pd ∧ pd ≤ 7 / 5) (hn : rpm ≠ 0)
    (hD : 0 < y.diameter) (hrho : 0 ≤ rho) (ht : y.deduction ≤ 1) (he : 0 ≤ y.efficiency) :
    ∃ T Q : ℝ, bSeriesForce y rho 0 commands = .ok (.num T, .num (if y.clockwise then -Q else Q)) ∧
      17 / 100 * ((1 - y.deduction) * rho * (rpm / (2 * Real.pi)) ^ 2 * y.diameter ^ 4) ≤ T ∧
      14 / 1000 * (y.efficiency * rho * (rpm / (2 * Real.pi)) ^ 2 * y.diameter ^ 5) ≤ Q := by
  obtain ⟨hZ, hA1, hA2⟩ := checked hy
  have h := force_turning (y := y) (rho := rho) (u := 0) hr hp hn hD.ne' (J := 0) (by simp)
  have h0 : max (min (0 : ℝ) (3 / 2)) 0 = 0 := by norm_num
  rw [h0] at h
  have hkt := kt_rest hZ hpd.1 hpd.2 hA1 hA2
  have hkq := kq_rest hZ hpd.1 hpd.2 hA1 hA2
  refine ⟨(1 - y.deduction) * rho * (rpm / (2 * Real.pi)) ^ 2 * y.diameter ^ 4 * sumOf ktTable y.blades y.areaRatio pd 0,
    y.efficiency * rho * (rpm / (2 * Real.pi)) ^ 2 * y.diameter ^ 5 * sumOf kqTable y.blades y.areaRatio pd 0, ?_, ?_, ?_⟩
  · rw [h]
    cases y.clockwise <;> simp
  · have h1 : 0 ≤ (1 - y.deduction) * rho * (rpm / (2 * Real.pi)) ^ 2 * y.diameter ^ 4 := by
      have : 0 ≤ 1 - y.deduction := by linarith
      positivity
    nlinarith [mul_le_mul_of_nonneg_left hkt h1]
  · have h1 : 0 ≤ y.efficiency * rho * (rpm / (2 * Real.pi)) ^ 2 * y.diameter ^ 5 := by positivity
    nlinarith [mul_le_mul_of_nonneg_left hkq h1]

/-- **C172** (partial: two to four blades) The faster the ship, the smaller the thrust of a propeller at a given speed of rotation (ahead) and pitch: the thrust
coefficient loses at least 0.01 for each unit of advance ratio, as long as this is less than 1.5. -/
theorem thrust_decreases_partial (y : BSeries) (hy : checkWageningen y.blades y.areaRatio = .ok ()) (h4 : y.blades ≤ 4) (rho rpm pd : ℝ)
    (commands : List (String × ℝ)) (hr : commands.lookup "rpm" = some rpm) (hp : commands.lookup "P/D" = some pd) (hpd : 1 / 2 ≤ pd ∧ pd ≤ 7 / 5)
    (hn : 0 < rpm) (hD : 0 < y.diameter) (hrho : 0 ≤ rho) (ht : y.deduction ≤ 1) (hw : y.wake ≤ 1) (u1 u2 : ℝ) (hu : |u1| ≤ |u2|) :
    ∃ T1 T2 Q1 Q2 : ℝ, bSeriesForce y rho u1 commands = .ok (.num T1, .num Q1) ∧ bSeriesForce y rho u2 commands = .ok (.num T2, .num Q2) ∧ T2 ≤ T1 ∧
      ∀ J1 J2, J1 * (rpm / (2 * Real.pi) * y.diameter) = (1 - y.wake) * |u1| → J2 * (rpm / (2 * Real.pi) * y.diameter) = (1 - y.wake) * |u2| → J2 ≤ 3 / 2 →
        T2 + (J2 - J1) / 100 * ((1 - y.deduction) * rho * (rpm / (2 * Real.pi)) ^ 2 * y.diameter ^ 4) ≤ T1 := by
  obtain ⟨hZ, hA1, hA2⟩ := checked hy
  have hpi := Real.pi_pos
  have hnD : 0 < rpm / (2 * Real.pi) * y.diameter := by positivity
  have hfall := kt_falling ⟨hZ.1, h4⟩ hpd.1 hpd.2 hA1 hA2
  have hw' : 0 ≤ 1 - y.wake := by linarith
  have hscale : 0 ≤ (1 - y.deduction) * rho * (rpm / (2 * Real.pi)) ^ 2 * y.diameter ^ 4 := by
    have : 0 ≤ 1 - y.deduction := by linarith
    positivity
  have e1 : ((1 - y.wake) * |u1| / (rpm / (2 * Real.pi) * y.diameter)) * (rpm / (2 * Real.pi) * y.diameter) = (1 - y.wake) * |u1| :=
    div_mul_cancel₀ _ hnD.ne'
  have e2 : ((1 - y.wake) * |u2| / (rpm / (2 * Real.pi) * y.diameter)) * (rpm / (2 * Real.pi) * y.diameter) = (1 - y.wake) * |u2| :=
    div_mul_cancel₀ _ hnD.ne'
  have h0 : 0 ≤ (1 - y.wake) * |u1| / (rpm / (2 * Real.pi) * y.diameter) := by positivity
  have h12 : (1 - y.wake) * |u1| / (rpm / (2 * Real.pi) * y.diameter) ≤ (1 - y.wake) * |u2| / (rpm / (2 * Real.pi) * y.diameter) :=
    div_le_div_of_nonneg_right (mul_le_mul_of_nonneg_left hu hw') hnD.le
  refine ⟨_, _, _, _, force_turning hr hp hn.ne' hD.ne' e1, force_turning hr hp hn.ne' hD.ne' e2, ?_, ?_⟩
  · refine mul_le_mul_of_nonneg_left ?_ hscale
    generalize (1 - y.wake) * |u1| / (rpm / (2 * Real.pi) * y.diameter) = J1 at h0 h12 ⊢
    generalize (1 - y.wake) * |u2| / (rpm / (2 * Real.pi) * y.diameter) = J2 at h12 ⊢
    have := hfall.lt (a := max (min J1 (3 / 2)) 0) (b := max (min J2 (3 / 2)) 0) (le_max_right _ _) (max_le_max (min_le_min h12 le_rfl) le_rfl)
      (max_le (min_le_right _ _) (by norm_num))
    have h3 : max (min J1 (3 / 2)) 0 ≤ max (min J2 (3 / 2)) 0 := max_le_max (min_le_min h12 le_rfl) le_rfl
    linarith
  · intro J1 J2 hJ1 hJ2 hJ
    have g1 : (1 - y.wake) * |u1| / (rpm / (2 * Real.pi) * y.diameter) = J1 := by rw [← hJ1, mul_div_assoc, div_self hnD.ne', mul_one]
    have g2 : (1 - y.wake) * |u2| / (rpm / (2 * Real.pi) * y.diameter) = J2 := by rw [← hJ2, mul_div_assoc, div_self hnD.ne', mul_one]
    rw [g1] at h0 h12 ⊢
    rw [g2] at h12 ⊢
    have s1 : max (min J1 (3 / 2)) 0 = J1 := by rw [min_eq_left (by linarith), max_eq_left h0]
    have s2 : max (min J2 (3 / 2)) 0 = J2 := by rw [min_eq_left hJ, max_eq_left (by linarith)]
    rw [s1, s2]
    have := mul_le_mul_of_nonneg_left (hfall.lt h0 h12 hJ) hscale
    nlinarith [this]

/-- **C172** (refuted) With five, six or seven blades, a pitch ratio of 1.4 and an area ratio of 0.3 (all in the domain of the B series), a ship that begins to
move gets more thrust. -/
theorem thrust_increases_refuted (Z : Nat) (hZ : 5 ≤ Z ∧ Z ≤ 7) :
    checkWageningen Z (3 / 10 : ℝ) = .ok () ∧
    ∃ T1 T2 Q1 Q2 : ℝ,
      bSeriesForce ⟨Z, 3 / 10, 0, 0, 1, 1, true⟩ 1 0 [("rpm", 2 * Real.pi), ("P/D", 7 / 5)] = .ok (.num T1, .num Q1) ∧
      bSeriesForce ⟨Z, 3 / 10, 0, 0, 1, 1, true⟩ 1 (1 / 100) [("rpm", 2 * Real.pi), ("P/D", 7 / 5)] = .ok (.num T2, .num Q2) ∧ T1 < T2 := by
  have hpi := Real.pi_pos
  have hne : 2 * Real.pi ≠ 0 := by positivity
  refine ⟨?_, ?_⟩
  · unfold checkWageningen
    rw [if_neg (by omega), if_neg (by norm_num)]
  have hr : ([("rpm", 2 * Real.pi), ("P/D", 7 / 5)] : List (String × ℝ)).lookup "rpm" = some (2 * Real.pi) := rfl
  have hp : ([("rpm", 2 * Real.pi), ("P/D", 7 / 5)] : List (String × ℝ)).lookup "P/D" = some (7 / 5) := rfl
  refine ⟨_, _, _, _, force_turning hr hp hne one_ne_zero (J := 0) (by simp),
    force_turning hr hp hne one_ne_zero (J := 1 / 100) (by rw [div_self hne, abs_of_nonneg (by norm_num)]; norm_num), ?_⟩
  have s1 : max (min (0 : ℝ) (3 / 2)) 0 = 0 := by norm_num
  have s2 : max (min (1 / 100 : ℝ) (3 / 2)) 0 = 1 / 100 := by rw [min_eq_left (by norm_num), max_eq_left (by norm_num)]
  rw [s1, s2, div_self hne]
  have key : sumOf ktTable Z (3 / 10) (7 / 5) 0 < sumOf ktTable Z (3 / 10) (7 / 5) (1 / 100) := by
    obtain ⟨hl, hu⟩ := hZ
    interval_cases Z
    all_goals
      simp only [sumOf, ktTable, terms, coeffT, expJT, expPDT, expAET, expZT, List.foldl_cons, List.foldl_nil]
      norm_num
  simp only [sub_zero, one_pow, mul_one, one_mul]
  exact key

/-- The hypotheses are met: three blades, area ratio 0.7, pitch ratio 1. -/
example : ∃ T Q : ℝ, bSeriesForce ⟨3, 7 / 10, 1 / 5, 1 / 10, 1, 2, true⟩ 1000 0 [("rpm", 10), ("P/D", 1)] = .ok (.num T, .num (-Q)) ∧ 0 < T ∧ 0 < Q := by
  obtain ⟨T, Q, h, hT, hQ⟩ := bollard_pull ⟨3, 7 / 10, 1 / 5, 1 / 10, 1, 2, true⟩ (by unfold checkWageningen; rw [if_neg (by norm_num), if_neg (by norm_num)])
    1000 10 1 [("rpm", 10), ("P/D", 1)] rfl rfl ⟨by norm_num, by norm_num⟩ (by norm_num) (by norm_num) (by norm_num) (by norm_num) (by norm_num)
  have hpi := Real.pi_pos
  refine ⟨T, Q, by simpa using h, lt_of_lt_of_le ?_ hT, lt_of_lt_of_le ?_ hQ⟩
  · norm_num; positivity
  · norm_num; positivity

/-- A command that is missing is an exception. -/
example (y : BSeries) (rho u : ℝ) : bSeriesForce y rho u [("rpm", 10)] = .error (.throw "out_of_range") := rfl

/-! ### The published series -/

theorem sum_terms (Z : Nat) (A P j : ℝ) : ∀ (table : List BSeries.Line) (acc : ℝ),
    (table.map fun l => (⟨l.C, l.s, l.t, l.u, l.v⟩ : Monomial ℝ)).foldl (fun acc m => acc + m.c * j ^ m.s * P ^ m.t * A ^ m.u * (Z : ℝ) ^ m.v) acc =
      acc + BSeries.value table Z A P j
  | [], acc => by simp [BSeries.value]
  | l :: table, acc => by
    rw [List.map_cons, List.foldl_cons, sum_terms Z A P j table]
    simp only [BSeries.value, List.map_cons, List.sum_cons]
    ring

theorem kt_published (Z : Nat) (A P j : ℝ) : sumOf ktTable Z A P j = BSeries.value BSeries.thrust Z A P j := by
  rw [← zero_add (BSeries.value _ _ _ _ _), ← sum_terms]
  rfl

theorem kq_published (Z : Nat) (A P j : ℝ) : sumOf kqTable Z A P j = BSeries.value BSeries.torque Z A P j := by
  rw [← zero_add (BSeries.value _ _ _ _ _), ← sum_terms]
  rfl

/-- **C203** The propeller is the one of the published series: when it turns ahead at `rpm` (rad/s, hence `n` turns per second) behind a ship that goes at `u`, with an advance ratio
`J = (1 - w) |u| / (n D)` of at most 1.5, the thrust is `(1 - t) ρ n² D⁴ Kt` and the torque, opposed to the rotation, `ηR ρ n² D⁵ Kq`, where `Kt` and `Kq` are the published polynomials at this
advance ratio and for the number of blades, the area ratio and the pitch ratio that were given. -/
theorem published_series (y : BSeries) (rho u rpm pd n J : ℝ) (commands : List (String × ℝ)) (hr : commands.lookup "rpm" = some rpm)
    (hp : commands.lookup "P/D" = some pd) (hn : rpm = 2 * Real.pi * n) (hpos : 0 < n) (hD : 0 < y.diameter) (hJ : J = (1 - y.wake) * |u| / (n * y.diameter)) (h0 : 0 ≤ J) (h1 : J ≤ 3 / 2) :
    bSeriesForce y rho u commands = .ok
      (.num ((1 - y.deduction) * rho * n ^ 2 * y.diameter ^ 4 * BSeries.value BSeries.thrust y.blades y.areaRatio pd J),
       .num ((if y.clockwise then -1 else 1) * (y.efficiency * rho * n ^ 2 * y.diameter ^ 5 * BSeries.value BSeries.torque y.blades y.areaRatio pd J))) := by
  have hpi := Real.pi_pos
  have hn' : rpm / (2 * Real.pi) = n := by rw [hn, mul_comm, mul_div_assoc, div_self (by positivity), mul_one]
  have hJ' : J * (rpm / (2 * Real.pi) * y.diameter) = (1 - y.wake) * |u| := by
    rw [hn', hJ, div_mul_cancel₀]
    positivity
  rw [force_turning hr hp (by rw [hn]; positivity) hD.ne' hJ', hn', min_eq_left h1, max_eq_left h0, kt_published, kq_published]
  congr 3
  ring

/-- Outside of the interval the advance ratio is replaced by the nearest bound. -/
theorem published_series_fast (y : BSeries) (rho u rpm pd n : ℝ) (commands : List (String × ℝ)) (hr : commands.lookup "rpm" = some rpm)
    (hp : commands.lookup "P/D" = some pd) (hn : rpm = 2 * Real.pi * n) (hpos : 0 < n) (hD : 0 < y.diameter) (h1 : 3 / 2 ≤ (1 - y.wake) * |u| / (n * y.diameter)) :
    bSeriesForce y rho u commands = .ok
      (.num ((1 - y.deduction) * rho * n ^ 2 * y.diameter ^ 4 * BSeries.value BSeries.thrust y.blades y.areaRatio pd (3 / 2)),
       .num ((if y.clockwise then -1 else 1) * (y.efficiency * rho * n ^ 2 * y.diameter ^ 5 * BSeries.value BSeries.torque y.blades y.areaRatio pd (3 / 2)))) := by
  have hpi := Real.pi_pos
  have hn' : rpm / (2 * Real.pi) = n := by rw [hn, mul_comm, mul_div_assoc, div_self (by positivity), mul_one]
  have hJ' : (1 - y.wake) * |u| / (n * y.diameter) * (rpm / (2 * Real.pi) * y.diameter) = (1 - y.wake) * |u| := by
    rw [hn', div_mul_cancel₀]
    positivity
  rw [force_turning hr hp (by rw [hn]; positivity) hD.ne' hJ', hn', min_eq_right h1, max_eq_left (by norm_num), kt_published, kq_published]
  congr 3
  ring

/-- A propeller of four blades, of 2 m, at 2 turns per second behind a ship at 4 m/s (advance ratio 0.9): the hypotheses are met. -/
example : ∃ (y : BSeries) (u rpm : ℝ) (commands : List (String × ℝ)), checkWageningen y.blades y.areaRatio = .ok () ∧ commands.lookup "rpm" = some rpm ∧ commands.lookup "P/D" = some 1 ∧
    rpm = 2 * Real.pi * 2 ∧ 0 < y.diameter ∧ (9 / 10 : ℝ) = (1 - y.wake) * |u| / (2 * y.diameter) := by
  refine ⟨⟨4, 1, 1 / 10, 0, 1, 2, true⟩, 4, 2 * Real.pi * 2, [("rpm", 2 * Real.pi * 2), ("P/D", 1)], ?_, rfl, rfl, rfl, by norm_num, by norm_num⟩
  unfold checkWageningen
  norm_num

end Xdyn.Forces

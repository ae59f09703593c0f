import Verif.Model.KtKq
import Mathlib.Data.Rat.Defs
import Mathlib.Algebra.Field.Rat
import Mathlib.Algebra.Order.Ring.Rat
import Mathlib.Tactic.FieldSimp
import Mathlib.Tactic.Linarith

/-
C213: a propeller given by its open water tables.
-/

namespace Xdyn.Forces

variable {K : Type} [Field K] [LinearOrder K] [IsStrictOrderedRing K]

/-! ### Specification -/

/-- A table whose abscissae increase and which gives a value for each of them. -/
structure Tabulated (J tab : List K) : Prop where
  increasing : J.Pairwise (· < ·)
  sized : tab.length = J.length

/-- The interpolation goes through the points of the tables (external). -/
def Interpolates (spline : List K → List K → K → K) : Prop :=
  ∀ J tab, Tabulated J tab → ∀ (r : Nat) (j v : K), J[r]? = some j → tab[r]? = some v → spline J tab j = v

/-! ### Lemmas -/

omit [IsStrictOrderedRing K] in
theorem between_bounds {J : List K} (h : J.Pairwise (· < ·)) {r : Nat} {j : K} (hr : J[r]? = some j) : J.headD 0 ≤ j ∧ j ≤ J.getLastD 0 := by
  have hm : j ∈ J := List.mem_of_getElem? hr
  constructor
  · cases J with
    | nil => simp at hm
    | cons a l =>
      rw [List.headD_cons]
      rcases List.mem_cons.mp hm with rfl | hm
      · exact le_refl _
      · exact ((List.pairwise_cons.mp h).1 j hm).le
  · have hne : J ≠ [] := List.ne_nil_of_mem hm
    obtain ⟨l, a, rfl⟩ := (List.eq_nil_or_concat J).resolve_left hne
    rw [List.concat_eq_append] at h hm ⊢
    rw [List.getLastD_eq_getLast?, List.getLast?_append]
    simp only [List.getLast?_singleton, Option.some_or, Option.getD_some]
    rcases List.mem_append.mp hm with hm | hm
    · exact ((List.pairwise_append.mp h).2.2 j hm a (by simp)).le
    · rw [List.mem_singleton.mp hm]

omit [IsStrictOrderedRing K] in
theorem advance_ratio_num {w u n D : K} (hn : n ≠ 0) (hD : D ≠ 0) : advanceRatio w u n D = .num ((1 - w) * |u| / n / D) := by
  simp [advanceRatio, divide, hn, hD]

/-! ### C213 -/

/-- When the propeller turns and the advance ratio is one of those of the table, the thrust is `(1 - t) ρ n² D⁴ Kt` and the torque `± etaR ρ n² D⁵ Kq`, with the coefficients of the table. -/
theorem open_water_point {spline : List K → List K → K → K} (hs : Interpolates spline) (onNaN : Except Err (Ratio K)) {pi rho : K} (p : OpenWater K) (ht : Tabulated p.J p.Kt)
    (hq : Tabulated p.J p.Kq) {u rpm : K} (hrpm : rpm ≠ 0) (hpi : pi ≠ 0) (hD : p.D ≠ 0) {r : Nat} {j kt kq : K} (hj : p.J[r]? = some j) (hkt : p.Kt[r]? = some kt) (hkq : p.Kq[r]? = some kq)
    (hJ : j * (rpm / (2 * pi) * p.D) = (1 - p.w) * |u|) :
    openWaterForce spline onNaN pi rho p u rpm =
      .ok (.num ((1 - p.t) * rho * (rpm / (2 * pi)) ^ 2 * p.D ^ 4 * kt), .num ((if p.clockwise then -1 else 1) * p.etaR * rho * (rpm / (2 * pi)) ^ 2 * p.D ^ 5 * kq)) := by
  have hn : rpm / (2 * pi) ≠ 0 := div_ne_zero hrpm (mul_ne_zero two_ne_zero hpi)
  have hJ' : (1 - p.w) * |u| / (rpm / (2 * pi)) / p.D = j := by
    rw [div_div, ← hJ, mul_div_assoc, div_self (mul_ne_zero hn hD), mul_one]
  have hb := between_bounds ht.increasing hj
  simp only [openWaterForce, advance_ratio_num hn hD, hJ', tableCoefficient, if_pos hb, hs _ _ ht r j kt hj hkt, hs _ _ hq r j kq hj hkq, bind, Except.bind, pure, Except.pure, propeller,
    Except.ok.injEq, Prod.mk.injEq, Ratio.num.injEq]
  constructor <;> ring

/-- Between the points, the thrust and the torque use the interpolations, which are never asked for a value out of the table: beyond the bounds of the table, the evaluation is refused. -/
theorem open_water_domain (spline : List K → List K → K → K) (onNaN : Except Err (Ratio K)) {pi rho : K} (p : OpenWater K) {u rpm : K} (hrpm : rpm ≠ 0) (hpi : pi ≠ 0) (hD : p.D ≠ 0) (j : K)
    (hJ : j * (rpm / (2 * pi) * p.D) = (1 - p.w) * |u|) :
    (p.J.headD 0 ≤ j ∧ j ≤ p.J.getLastD 0 → openWaterForce spline onNaN pi rho p u rpm =
      .ok (.num ((1 - p.t) * rho * (rpm / (2 * pi)) ^ 2 * p.D ^ 4 * spline p.J p.Kt j),
        .num ((if p.clockwise then -1 else 1) * p.etaR * rho * (rpm / (2 * pi)) ^ 2 * p.D ^ 5 * spline p.J p.Kq j))) ∧
    (j < p.J.headD 0 ∨ p.J.getLastD 0 < j → openWaterForce spline onNaN pi rho p u rpm = .error (.throw "NumericalErrorException")) := by
  have hn : rpm / (2 * pi) ≠ 0 := div_ne_zero hrpm (mul_ne_zero two_ne_zero hpi)
  have hJ' : (1 - p.w) * |u| / (rpm / (2 * pi)) / p.D = j := by
    rw [div_div, ← hJ, mul_div_assoc, div_self (mul_ne_zero hn hD), mul_one]
  constructor
  · intro hb
    simp only [openWaterForce, advance_ratio_num hn hD, hJ', tableCoefficient, if_pos hb, bind, Except.bind, pure, Except.pure, propeller, Except.ok.injEq, Prod.mk.injEq, Ratio.num.injEq]
    constructor <;> ring
  · intro hb
    have hb' : ¬(p.J.headD 0 ≤ j ∧ j ≤ p.J.getLastD 0) := by
      rintro ⟨h1, h2⟩
      rcases hb with hb | hb
      · exact absurd h1 (not_le.mpr hb)
      · exact absurd h2 (not_le.mpr hb)
    simp only [openWaterForce, advance_ratio_num hn hD, hJ', tableCoefficient, if_neg hb', bind, Except.bind]

/-- C213 (refutation of "a stopped propeller gives no force"): as soon as the ship moves, the evaluation is refused, whatever the tables. -/
theorem stopped_open_water_propeller_refused (spline : List K → List K → K → K) (onNaN : Except Err (Ratio K)) (pi rho : K) (p : OpenWater K) {u : K} (hu : u ≠ 0) (hw : p.w < 1) :
    openWaterForce spline onNaN pi rho p u 0 = .error (.throw "NumericalErrorException") := by
  have h : 0 < (1 - p.w) * |u| := mul_pos (by linarith) (abs_pos.mpr hu)
  have hJ : advanceRatio p.w u (0 / (2 * pi)) p.D = .posInf := by
    simp [advanceRatio, divide, h]
  simp only [openWaterForce, hJ, tableCoefficient, bind, Except.bind]

/-- C213: a propeller that turns backwards on a moving ship is refused if the tables start at `J = 0`. -/
theorem reversed_open_water_propeller_refused (spline : List K → List K → K → K) (onNaN : Except Err (Ratio K)) {pi rho : K} (p : OpenWater K) {u rpm : K} (hrpm : rpm < 0) (hpi : 0 < pi)
    (hD : 0 < p.D) (hu : u ≠ 0) (hw : p.w < 1) (h0 : 0 ≤ p.J.headD 0) : openWaterForce spline onNaN pi rho p u rpm = .error (.throw "NumericalErrorException") := by
  have hn : rpm / (2 * pi) < 0 := div_neg_of_neg_of_pos hrpm (by linarith)
  have h : 0 < (1 - p.w) * |u| := mul_pos (by linarith) (abs_pos.mpr hu)
  have hnD : rpm / (2 * pi) * p.D < 0 := mul_neg_of_neg_of_pos hn hD
  refine (open_water_domain spline onNaN p hrpm.ne hpi.ne' hD.ne' ((1 - p.w) * |u| / (rpm / (2 * pi) * p.D)) (div_mul_cancel₀ _ hnD.ne)).2 (Or.inl ?_)
  exact lt_of_lt_of_le (div_neg_of_pos_of_neg h hnD) h0

/-! ### Examples -/

/-- A propeller of 2 m with three points. -/
def smallPropeller : OpenWater ℚ := { w := 0, etaR := 1, t := 1 / 10, D := 2, clockwise := true, J := [0, 1 / 2, 1], Kt := [4 / 10, 2 / 10, 0], Kq := [6 / 100, 4 / 100, 1 / 100] }

/-- An interpolation that goes through the points. -/
def throughPoints (J tab : List ℚ) (j : ℚ) : ℚ := (tab[J.idxOf j]?).getD 0

theorem through_points : Interpolates throughPoints := by
  intro J tab h r j v h1 h2
  have hnd : J.Nodup := h.increasing.imp (fun h => ne_of_lt h)
  have hr : r < J.length := (List.getElem?_eq_some_iff.mp h1).1
  have : J.idxOf j = r := by
    rw [← (List.getElem?_eq_some_iff.mp h1).2]
    exact hnd.idxOf_getElem r hr
  simp only [throughPoints, this, h2, Option.getD_some]

/-- At 5 turns per second and 5 m/s, `J` is 1/2 (with 3 for pi). -/
example : openWaterForce throughPoints (.ok .nan) 3 1000 smallPropeller 5 30 = .ok (.num ((1 - 1 / 10) * 1000 * (30 / (2 * 3)) ^ 2 * 2 ^ 4 * (2 / 10)),
    .num (-1 * 1 * 1000 * (30 / (2 * 3)) ^ 2 * 2 ^ 5 * (4 / 100))) := by
  have := open_water_point through_points (.ok .nan) (pi := 3) (rho := 1000) smallPropeller ⟨by decide +kernel, rfl⟩ ⟨by decide +kernel, rfl⟩ (u := 5) (rpm := 30) (by norm_num) (by norm_num)
    (by norm_num [smallPropeller]) (r := 1) (j := 1 / 2) (kt := 2 / 10) (kq := 4 / 100) rfl rfl rfl (by norm_num [smallPropeller])
  simpa [smallPropeller] using this

/-- Stopped while the ship moves. -/
example : openWaterForce throughPoints (.ok .nan) 3 1000 smallPropeller 5 0 = .error (.throw "NumericalErrorException") :=
  stopped_open_water_propeller_refused _ _ _ _ _ (by norm_num) (by norm_num [smallPropeller])

end Xdyn.Forces

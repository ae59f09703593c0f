/-
Diffraction incidence, transport of the diffraction wrench, radiation damping.
-/
import Mathlib.Algebra.BigOperators.Fin
import Mathlib.Tactic.FieldSimp
import Mathlib.Tactic.Positivity
import Verif.Lemmas.Hdb
import Verif.Lemmas.Waves

namespace Xdyn.Hdb

/-! ### C56: incidence -/

theorem wrapAngle_range (beta : ℝ) : 0 ≤ wrapAngle beta ∧ wrapAngle beta < 2 * Real.pi := by
  have h2 : (0 : ℝ) < 2 * Real.pi := by positivity
  have h0 := Int.floor_le (beta / (2 * Real.pi))
  have h1 := Int.lt_floor_add_one (beta / (2 * Real.pi))
  rw [le_div_iff₀ h2] at h0
  rw [div_lt_iff₀ h2] at h1
  unfold wrapAngle
  constructor <;> linarith

theorem wrapAngle_unique (beta x : ℝ) (n : ℤ) (h : beta = x + 2 * Real.pi * n) (h0 : 0 ≤ x)
    (h1 : x < 2 * Real.pi) : wrapAngle beta = x := by
  have h2 : (0 : ℝ) < 2 * Real.pi := by positivity
  have : ⌊beta / (2 * Real.pi)⌋ = n := by
    rw [Int.floor_eq_iff, le_div_iff₀ h2, div_lt_iff₀ h2]
    constructor <;> nlinarith
  unfold wrapAngle
  rw [this, h]
  ring

/-- The interpolated modules and phases are 2*pi-periodic in the incidence. -/
theorem diffraction_periodic (f : ℝ → ℝ → ℝ) (mirror : Bool) (axis : Fin 6) (Tp beta : ℝ) (n : ℤ) :
    interpolateModule f mirror axis Tp (beta + 2 * Real.pi * n) = interpolateModule f mirror axis Tp beta ∧
    interpolatePhase f mirror axis Tp (beta + 2 * Real.pi * n) = interpolatePhase f mirror axis Tp beta := by
  have : wrapAngle (beta + 2 * Real.pi * n) = wrapAngle beta := by
    refine wrapAngle_unique _ _ (⌊beta / (2 * Real.pi)⌋ + n) ?_ (wrapAngle_range beta).1 (wrapAngle_range beta).2
    unfold wrapAngle
    push_cast
    ring
  unfold interpolateModule interpolatePhase
  simp only [this]
  exact ⟨trivial, trivial⟩

/-- Without mirroring the RAO of an incidence in [0, 2*pi) is the one of the table; with
mirroring this holds for the incidences in [0, pi]. -/
theorem diffraction_direct (f : ℝ → ℝ → ℝ) (mirror : Bool) (axis : Fin 6) (Tp beta : ℝ)
    (h0 : 0 ≤ beta) (h1 : beta < 2 * Real.pi) (hm : mirror = true → beta ≤ Real.pi) :
    interpolateModule f mirror axis Tp beta = f Tp beta ∧
    interpolatePhase f mirror axis Tp beta = f Tp beta := by
  have hw : wrapAngle beta = beta := wrapAngle_unique beta beta 0 (by simp) h0 h1
  unfold interpolateModule interpolatePhase
  simp only [hw]
  have : ¬ (mirror = true ∧ Real.pi < beta) := fun h => absurd (hm h.1) (not_le.mpr h.2)
  simp [this]

/-- With mirroring, the RAO of an incidence in (pi, 2*pi) is the one of its mirror image
2*pi - beta, in (0, pi), with the opposite sign for sway, roll and yaw (axes 1, 3 and 5). -/
theorem diffraction_mirror (f : ℝ → ℝ → ℝ) (axis : Fin 6) (Tp beta : ℝ)
    (h0 : Real.pi < beta) (h1 : beta < 2 * Real.pi) :
    interpolateModule f true axis Tp beta =
      (if axis.val % 2 = 1 then -1 else 1) * f Tp (2 * Real.pi - beta) ∧
    interpolatePhase f true axis Tp beta = f Tp (2 * Real.pi - beta) := by
  have hp := Real.pi_pos
  have hw : wrapAngle beta = beta := wrapAngle_unique beta beta 0 (by simp) (by linarith) h1
  unfold interpolateModule interpolatePhase
  simp only [hw, h0, and_self, if_true]
  fin_cases axis <;> simp

/-- The vessel is symmetric: with mirroring, the response to an incidence and to its mirror image
are equal, up to the sign for sway, roll and yaw, for every incidence which is not a multiple
of pi (for multiples of pi the two incidences coincide). -/
theorem diffraction_port_starboard (f : ℝ → ℝ → ℝ) (axis : Fin 6) (Tp beta : ℝ)
    (hb : ∀ n : ℤ, beta ≠ n * Real.pi) :
    interpolateModule f true axis Tp (-beta) =
      (if axis.val % 2 = 1 then -1 else 1) * interpolateModule f true axis Tp beta ∧
    interpolatePhase f true axis Tp (-beta) = interpolatePhase f true axis Tp beta := by
  have hp := Real.pi_pos
  obtain ⟨n, hn⟩ : ∃ n : ℤ, beta = wrapAngle beta + 2 * Real.pi * n :=
    ⟨_, by unfold wrapAngle; ring⟩
  have hr := wrapAngle_range beta
  set x := wrapAngle beta with hx
  have hx0 : x ≠ 0 := by
    intro h
    apply hb (2 * n)
    rw [hn, h]
    push_cast
    ring
  have hxpi : x ≠ Real.pi := by
    intro h
    apply hb (2 * n + 1)
    rw [hn, h]
    push_cast
    ring
  have e1 : -beta = (2 * Real.pi - x) + 2 * Real.pi * ((-n - 1 : ℤ) : ℝ) := by
    rw [hn]; push_cast; ring
  have p1 := diffraction_periodic f true axis Tp (2 * Real.pi - x) (-n - 1)
  have p2 := diffraction_periodic f true axis Tp x n
  rw [e1, p1.1, p1.2]
  rw [hn, p2.1, p2.2]
  rcases lt_or_gt_of_ne hxpi with h | h
  · obtain ⟨a1, a2⟩ := diffraction_mirror f axis Tp (2 * Real.pi - x) (by linarith)
      (by have := lt_of_le_of_ne hr.1 (Ne.symm hx0); linarith)
    obtain ⟨b1, b2⟩ := diffraction_direct f true axis Tp x hr.1 hr.2 (fun _ => le_of_lt h)
    rw [a1, a2, b1, b2]
    simp
  · obtain ⟨a1, a2⟩ := diffraction_direct f true axis Tp (2 * Real.pi - x) (by linarith) (by linarith)
      (fun _ => by linarith)
    obtain ⟨b1, b2⟩ := diffraction_mirror f axis Tp x h hr.2
    rw [a1, a2, b1, b2]
    constructor
    · split <;> ring
    · rfl

example : ∀ n : ℤ, (Real.pi / 2) ≠ n * Real.pi := by
  intro n h
  have hp := Real.pi_pos
  have h2 : (1 : ℝ) = 2 * n := by
    have : Real.pi * (1 - 2 * n) = 0 := by linarith
    rcases mul_eq_zero.mp this with h | h
    · exact absurd h (ne_of_gt hp)
    · linarith
  have : (1 : ℤ) = 2 * n := by exact_mod_cast h2
  omega

/-! ### C87: the diffraction wrench is transported to the point where forces are summed -/

section
variable {K : Type} [Field K] [LinearOrder K]

/-- Power of a wrench: force and moment at a point, velocity of this point and rotation. -/
def power (F M v omega : Fin 3 → K) : K := (∑ i, F i * v i) + ∑ i, M i * omega i

/-- In any rigid motion (velocity `vG` of G, rotation `omega`) the wrench returned at G has the
same power as the wrench at the calculation point, whose velocity is `vG + omega × GP`. -/
theorem diffraction_wrench_transport (w : Fin 6 → K) (H0 G vG omega : Fin 3 → K) :
    power (diffractionWrench w H0 G).1 (diffractionWrench w H0 G).2 vG omega =
      power ![-(w 0), w 1, w 2] ![-(w 3), w 4, w 5]
        (fun i => vG i + cross omega (fun j => H0 j - G j) i) omega := by
  simp only [power, diffractionWrench, aquaplusWrench, cross, Fin.sum_univ_three]
  simp
  ring

/-- All the wave periods are accepted exactly if they are within the periods of the HDB file, up
to 0.01 s. -/
theorem diffraction_periods_accepted [IsStrictOrderedRing K] (a b : K) (T : List (List K)) :
    checkPeriods a T b = .ok () ↔ ∀ t ∈ T, ∀ Tp ∈ t, a - 1 / 100 ≤ Tp ∧ Tp ≤ b + 1 / 100 := by
  have hin : ∀ t : List K, (t.forM (fun Tp =>
      if Tp < a - 1 / 100 then Except.error (Err.throw "InvalidInput")
      else if b + 1 / 100 < Tp then .error (.throw "InvalidInput")
      else .ok ())) = .ok () ↔ ∀ Tp ∈ t, a - 1 / 100 ≤ Tp ∧ Tp ≤ b + 1 / 100 := by
    intro t
    induction t with
    | nil => simp [List.forM, pure, Except.pure]
    | cons x t ih =>
      simp only [List.forM, bind, Except.bind]
      by_cases h1 : x < a - 1 / 100
      · simp only [if_pos h1]
        constructor
        · intro h; simp at h
        · intro h
          exact absurd (h x (by simp)).1 (not_le.mpr h1)
      · rw [if_neg h1]
        by_cases h2 : b + 1 / 100 < x
        · simp only [if_pos h2]
          constructor
          · intro h; simp at h
          · intro h
            exact absurd (h x (by simp)).2 (not_le.mpr h2)
        · simp only [if_neg h2]
          rw [ih]
          simp only [List.mem_cons, forall_eq_or_imp]
          exact ⟨fun h => ⟨⟨not_lt.mp h1, not_lt.mp h2⟩, h⟩, fun h => h.2⟩
  unfold checkPeriods
  induction T with
  | nil => simp [List.forM, pure, Except.pure]
  | cons t T ih =>
    simp only [List.forM, bind, Except.bind]
    have h1 := hin t
    split
    · rename_i e he
      rw [he] at h1
      constructor
      · intro h; simp at h
      · intro h
        have := h1.mpr (h t (by simp))
        simp at this
    · rename_i u hu
      have h2 := h1.mp hu
      refine Iff.trans ih ?_
      simp only [List.mem_cons, forall_eq_or_imp]
      exact ⟨fun h => ⟨h2, h⟩, fun h => h.2⟩

example : checkPeriods (1 : ℚ) [[1, 2], [3005 / 1000]] 3 = .ok () ∧
    checkPeriods (1 : ℚ) [[1, 2], [302 / 100]] 3 ≠ .ok () := by
  decide +kernel

/-! ### C88: discretization of the retardation functions -/

/-- With at least two points, the delays are `n`, from the first to the last value, with a
constant step. -/
theorem regular_intervals_spec [IsStrictOrderedRing K] (first last : K) (n : Nat) (hn : 2 ≤ n) :
    (regularIntervals first last n).length = n ∧
    (regularIntervals first last n).head? = some first ∧
    (regularIntervals first last n).getLast? = some last ∧
    ∀ i, i + 1 < n → ∃ a b, (regularIntervals first last n)[i]? = some a ∧
      (regularIntervals first last n)[i + 1]? = some b ∧ b - a = (last - first) / ((n : K) - 1) := by
  have hn1 : ((n : K) - 1) ≠ 0 := by
    have : (2 : K) ≤ n := by exact_mod_cast hn
    have : (0 : K) < (n : K) - 1 := by linarith
    exact ne_of_gt this
  refine ⟨by simp [regularIntervals], ?_, ?_, ?_⟩
  · unfold regularIntervals
    rw [List.head?_map, List.head?_range]
    simp [show n ≠ 0 by omega]
  · unfold regularIntervals
    rw [List.getLast?_map, List.getLast?_range]
    simp only [show n ≠ 0 by omega, if_false, Option.map_some, Option.some.injEq]
    rw [Nat.cast_sub (by omega)]
    push_cast
    rw [mul_div_assoc, div_self hn1]
    ring
  · intro i hi
    refine ⟨first + (last - first) * (i : K) / ((n : K) - 1),
      first + (last - first) * ((i + 1 : Nat) : K) / ((n : K) - 1), ?_, ?_, ?_⟩
    · unfold regularIntervals
      rw [List.getElem?_map, List.getElem?_range (by omega)]
      rfl
    · unfold regularIntervals
      rw [List.getElem?_map, List.getElem?_range (by omega)]
      rfl
    · push_cast
      field_simp
      ring

/-- **C88** The angular frequencies of the radiation damping are `2 pi / T` for the periods of the HDB file; when these are positive and increase, so do
the frequencies (as the interpolation needs); a zero period is refused. -/
theorem radiation_omegas_spec [IsStrictOrderedRing K] (pi : K) (hpi : 0 < pi) (T : List K) :
    ((∀ p ∈ T, 0 < p) → List.Pairwise (· < ·) T →
      ∃ w, radiationOmegas pi T = .ok w ∧ w.length = T.length ∧ List.Pairwise (· < ·) w ∧
        ∀ x, x ∈ w ↔ ∃ p ∈ T, x * p = 2 * pi) ∧
    (0 ∈ T → radiationOmegas pi T = .error (.throw "InvalidInput")) := by
  constructor
  · intro hp ht
    have hm : radiationOmegas pi T = .ok (T.reverse.map (fun p => 2 * pi / p)) := by
      refine Waves.mapM_ok _ (fun p h => ?_)
      have := hp p (by simpa using h)
      rw [if_neg this.ne']
    refine ⟨_, hm, by simp, ?_, ?_⟩
    · rw [List.map_reverse, List.pairwise_reverse, List.pairwise_map]
      refine ht.imp_of_mem ?_
      intro a b ha hb hab
      have h2 : 0 < 2 * pi := by positivity
      exact div_lt_div_of_pos_left h2 (hp a ha) hab
    · intro x
      simp only [List.mem_map, List.mem_reverse]
      constructor
      · rintro ⟨p, h, rfl⟩
        exact ⟨p, h, div_mul_cancel₀ _ (hp p h).ne'⟩
      · rintro ⟨p, h, hx⟩
        exact ⟨p, h, by rw [← hx, mul_div_assoc, div_self (hp p h).ne', mul_one]⟩
  · intro h0
    unfold radiationOmegas
    have key : ∀ l : List K, 0 ∈ l → l.mapM (fun T => if T = 0 then (.error (.throw "InvalidInput") : Except Err K) else .ok (2 * pi / T)) =
        .error (.throw "InvalidInput") := by
      intro l
      induction l with
      | nil => simp
      | cons a l ih =>
        intro h
        simp only [List.mapM_cons, bind, Except.bind]
        by_cases ha : a = 0
        · simp [ha]
        · rw [if_neg ha]
          simp only
          rw [ih (by simpa [Ne.symm ha] using h)]
    exact key _ (by simpa using h0)

example : radiationOmegas (3 : ℚ) [1, 2, 3] = .ok [2, 3, 6] := by decide +kernel

/-- **C90** The names of quadratures that are accepted are the seven of the documentation, each one gives the method it names, and any other name is refused. -/
theorem quadrature_names (s : String) :
    (∀ q, parseQuadrature s = .ok q ↔ (s, q) ∈ [("gauss-kronrod", Quadrature.gaussKronrod), ("rectangle", .rectangle), ("simpson", .simpson),
      ("trapezoidal", .trapezoidal), ("burcher", .burcher), ("clenshaw-curtis", .clenshawCurtis), ("filon", .filon)]) ∧
    (s ∉ ["gauss-kronrod", "rectangle", "simpson", "trapezoidal", "burcher", "clenshaw-curtis", "filon"] →
      parseQuadrature s = .error (.throw "InvalidInput")) := by
  constructor
  · intro q
    unfold parseQuadrature
    constructor
    · intro h
      repeat' split at h
      all_goals first | (injection h with h; subst h; subst_vars; decide) | (cases h)
    · intro h
      simp only [List.mem_cons, Prod.mk.injEq, List.not_mem_nil, or_false] at h
      rcases h with ⟨rfl, rfl⟩ | ⟨rfl, rfl⟩ | ⟨rfl, rfl⟩ | ⟨rfl, rfl⟩ | ⟨rfl, rfl⟩ | ⟨rfl, rfl⟩ | ⟨rfl, rfl⟩ <;> decide
  · intro h
    simp only [List.mem_cons, List.not_mem_nil, or_false, not_or] at h
    obtain ⟨h1, h2, h3, h4, h5, h6, h7⟩ := h
    unfold parseQuadrature
    rw [if_neg h1, if_neg h2, if_neg h3, if_neg h4, if_neg h5, if_neg h6, if_neg h7]

example : regularIntervals (1 : ℚ) 2 5 = [1, 5 / 4, 3 / 2, 7 / 4, 2] := by decide +kernel

/-! ### C89: upper bound of the cosine transform -/

/-- Full statement: the damping neglected beyond the bound is below the tolerance.  Proved only
when the damping at the last pulsation is above the tolerance (nothing is neglected), or when the
root finder is used and the damping does not come back above the tolerance after the root. -/
theorem integration_bound_partial (root : (K → K) → K → K → K) (f : K → K) (a b eps : K)
    (h : eps < |f b| ∨ (eps ≤ |f a| ∧
      ∀ w, root (fun w => |f w| - eps) a b < w → w ≤ b → |f w| ≤ eps)) :
    ∀ w, integrationBound root f a b eps < w → w ≤ b → |f w| ≤ eps := by
  intro w hw hwb
  unfold integrationBound at hw
  by_cases h1 : eps < |f b|
  · rw [if_pos h1] at hw
    exact absurd hw (not_lt.mpr hwb)
  · rw [if_neg h1] at hw
    rcases h with h | ⟨h2, h3⟩
    · exact absurd h h1
    · rw [if_neg (not_lt.mpr h2)] at hw
      exact h3 w hw hwb

/-- The full statement fails: a damping which is small at both ends of the frequency range is
neglected completely (the bound is the lower bound, hence a zero retardation function), whatever
its values in between. -/
theorem integration_bound_refuted (root : (ℚ → ℚ) → ℚ → ℚ → ℚ) :
    ∃ (f : ℚ → ℚ) (a b eps : ℚ), a < b ∧ 0 < eps ∧ integrationBound root f a b eps = a ∧
      ∃ w, a < w ∧ w < b ∧ 1000 * eps < |f w| := by
  refine ⟨fun w => 1000 * (w - 1) * (3 - w), 1, 3, 1 / 1000, by norm_num, by norm_num, ?_, 2, by norm_num, by norm_num, ?_⟩
  · simp [integrationBound]
  · norm_num

/-! ### C90: radiation damping -/

/-- As long as no velocity history is long enough (first steps of the simulation), the damping
force is zero. -/
theorem radiation_zero_before_tau_min (integ : Integrate K) (y : RadiationYaml K)
    (Ker : Fin 6 → Fin 6 → K → K) (vel : Fin 6 → History K)
    (h : ∀ k, (vel k).duration < y.tauMin) :
    radiationWrench integ y Ker vel = .ok [0, 0, 0, 0, 0, 0] := by
  have hc : ∀ i, convolutionForAxis integ y Ker vel i = .ok 0 := by
    intro i
    unfold convolutionForAxis
    have : ∀ (l : List (Fin 6)) (acc : K), l.foldlM (fun acc k =>
        if y.tauMin ≤ (vel k).duration then do
          let co ← convolution integ y.type (vel k) (Ker i k) y.tauMin (min y.tauMax (vel k).duration)
          pure (acc + co)
        else pure acc) acc = (.ok acc : Except Err K) := by
      intro l
      induction l with
      | nil => intro acc; rfl
      | cons k l ih =>
        intro acc
        rw [List.foldlM_cons, if_neg (not_le.mpr (h k))]
        exact ih acc
    exact this _ 0
  unfold radiationWrench
  simp only [hc, bind, Except.bind, pure, Except.pure]
  rw [show (fun (_ : Fin 6) => (Except.ok (-(0 : K)) : Except Err K)) = fun i => .ok ((fun _ => (0 : K)) i) by
    funext; simp]
  rfl

/-- Only the velocities of the last `tau max` seconds matter: if two sets of histories have the same
durations (or both at least `tau max`), and the same values at each delay between `tau min` and
`tau max`, the damping forces are the same, for every quadrature which evaluates the integrand
between the bounds only. -/
theorem radiation_window (integ : Integrate K)
    (hinteg : ∀ t g g' a b, a ≤ b → (∀ x, a ≤ x → x ≤ b → g x = g' x) → integ t g a b = integ t g' a b)
    (y : RadiationYaml K) (htau : y.tauMin ≤ y.tauMax)
    (Ker : Fin 6 → Fin 6 → K → K) (vel vel' : Fin 6 → History K)
    (hdur : ∀ k, (vel k).duration = (vel' k).duration ∨
      (y.tauMax ≤ (vel k).duration ∧ y.tauMax ≤ (vel' k).duration))
    (hval : ∀ k tau, y.tauMin ≤ tau → tau ≤ y.tauMax → (vel k).value tau = (vel' k).value tau) :
    radiationWrench integ y Ker vel = radiationWrench integ y Ker vel' := by
  have hc : ∀ i, convolutionForAxis integ y Ker vel i = convolutionForAxis integ y Ker vel' i := by
    intro i
    unfold convolutionForAxis
    congr 1
    funext acc k
    have hcond : (y.tauMin ≤ (vel k).duration) ↔ (y.tauMin ≤ (vel' k).duration) := by
      rcases hdur k with h | ⟨h1, h2⟩
      · rw [h]
      · exact ⟨fun _ => le_trans htau h2, fun _ => le_trans htau h1⟩
    have hmin : min y.tauMax (vel k).duration = min y.tauMax (vel' k).duration := by
      rcases hdur k with h | ⟨h1, h2⟩
      · rw [h]
      · rw [min_eq_left h1, min_eq_left h2]
    have hconv : y.tauMin ≤ (vel k).duration → convolution integ y.type (vel k) (Ker i k) y.tauMin (min y.tauMax (vel k).duration) =
        convolution integ y.type (vel' k) (Ker i k) y.tauMin (min y.tauMax (vel' k).duration) := by
      intro hd
      rw [← hmin]
      unfold convolution
      have hi := fun t => hinteg t (fun tau => do let v ← (vel k).value tau; pure (v * Ker i k tau))
        (fun tau => do let v ← (vel' k).value tau; pure (v * Ker i k tau)) y.tauMin
        (min y.tauMax (vel k).duration) (le_min htau hd) (by
          intro x hx1 hx2
          rw [hval k x hx1 (le_trans hx2 (min_le_left _ _))])
      cases y.type <;> first | rfl | exact hi _
    by_cases hd : y.tauMin ≤ (vel k).duration
    · rw [if_pos hd, if_pos (hcond.mp hd), hconv hd]
    · rw [if_neg hd, if_neg (fun h => hd (hcond.mpr h))]
  unfold radiationWrench
  simp only [hc]

/-- Clenshaw-Curtis and Filon can be selected in the YAML file for the convolution, but the force
model then throws as soon as a history is long enough. -/
theorem radiation_unsuitable_quadrature (integ : Integrate K) (y : RadiationYaml K)
    (Ker : Fin 6 → Fin 6 → K → K) (vel : Fin 6 → History K)
    (ht : y.type = .clenshawCurtis ∨ y.type = .filon) (h : y.tauMin ≤ (vel 0).duration) :
    radiationWrench integ y Ker vel = .error (.throw "InternalError") := by
  have hc : ∀ i, convolutionForAxis integ y Ker vel i = .error (.throw "InternalError") := by
    intro i
    unfold convolutionForAxis
    rw [show List.finRange 6 = [0, 1, 2, 3, 4, 5] from rfl, List.foldlM_cons, if_pos h]
    rcases ht with h | h <;> simp [convolution, h, bind, Except.bind]
  unfold radiationWrench
  rw [show List.finRange 6 = [0, 1, 2, 3, 4, 5] from rfl, List.mapM_cons]
  simp only [hc, bind, Except.bind]

/-- The bounds `omega min`, `omega max` and the calculation point of the YAML file have no effect on
the retardation functions nor on the damping forces (they are documented as inputs of the
model). -/
theorem radiation_inputs_ignored (integ : Integrate K) (interp : List K → List K → K → K)
    (cosTransform : (K → K) → K → K → K → K) (root : (K → K) → K → K → K) (n : Nat)
    (y y' : RadiationYaml K)
    (h1 : y.type = y'.type) (h2 : y.tauMin = y'.tauMin) (h3 : y.tauMax = y'.tauMax)
    (omega : List K) (coeff : Fin 6 → Fin 6 → List K) (vel : Fin 6 → History K) :
    radiationWrench integ y (retardation interp cosTransform root n y omega coeff) vel =
      radiationWrench integ y' (retardation interp cosTransform root n y' omega coeff) vel := by
  have hr : retardation interp cosTransform root n y omega coeff =
      retardation interp cosTransform root n y' omega coeff := by
    funext i j tau
    unfold retardation
    rw [h2, h3]
  unfold radiationWrench convolutionForAxis
  rw [hr, h1, h2, h3]

/-- An example: a history of 2 s, a quadrature (one midpoint) and the force it gives. -/
def midpoint : Integrate ℚ := fun _ g a b => do let v ← g ((a + b) / 2); pure ((b - a) * v)

def exampleRadiation : RadiationYaml ℚ := ⟨.rectangle, 1, 4, 0, 10, fun _ => 0⟩

example : radiationWrench midpoint exampleRadiation (fun i k tau => if i = k then tau else 0)
    (fun _ => ⟨10, [(0, 1), (2, 3)], 0⟩) = .ok [-3 / 2 * 3 / 2, -9 / 4, -9 / 4, -9 / 4, -9 / 4, -9 / 4] := by
  decide +kernel

example : ∀ t g g' (a b : ℚ), a ≤ b → (∀ x, a ≤ x → x ≤ b → g x = g' x) →
    midpoint t g a b = midpoint t g' a b := by
  intro t g g' a b hab h
  unfold midpoint
  rw [h ((a + b) / 2) (by linarith) (by linarith)]

end
end Xdyn.Hdb

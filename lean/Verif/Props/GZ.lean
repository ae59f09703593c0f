/-
C68 - C70, C99, C100: GZ curves.
-/
import Mathlib.Topology.Order.IntermediateValue
import Mathlib.Topology.Instances.Real.Lemmas
import Mathlib.Topology.Order.Lattice
import Mathlib.Algebra.Order.Archimedean.Basic
import Mathlib.Data.List.Chain
import Mathlib.Data.Rat.Floor
import Mathlib.Tactic.Linarith
import Mathlib.Tactic.NormNum
import Mathlib.Tactic.Positivity
import Mathlib.Tactic.FieldSimp
import Mathlib.Tactic.Ring
import Verif.Model.GZ

namespace Xdyn.GZ

section phi
variable {K : Type} [Field K] [LinearOrder K] [IsStrictOrderedRing K] [FloorRing K]

/-- the rounded number of steps is within one half of the quotient, and at least one -/
theorem stdRound_spec (x : K) (hx : 0 ≤ x) :
    (stdRound x : K) ≤ x + 1/2 ∧ x - 1/2 < (stdRound x : K) := by
  unfold stdRound
  rw [if_pos hx]
  have h1 := Int.floor_le (x + 1/2)
  have h2 := Int.lt_floor_add_one (x + 1/2)
  constructor
  · exact h1
  · linarith

theorem stdRound_pos (x : K) (hx : 1 ≤ x) : 1 ≤ stdRound x := by
  have h := (stdRound_spec x (le_trans zero_le_one hx)).2
  have : (0 : K) < (stdRound x : K) := by linarith
  have : (0 : Int) < stdRound x := by exact_mod_cast this
  omega

/-- C68, invalid inputs: a step or an amplitude that is not positive, or an amplitude below the step,
raise InvalidInputException -/
theorem getPhi_invalid (dphi phiMax : K) (h : dphi ≤ 0 ∨ phiMax ≤ 0 ∨ phiMax < dphi) :
    getPhi dphi phiMax = .error invalidInput := by
  unfold getPhi checkInput
  rw [if_pos h]

/-- C68. For a positive step not above the amplitude (and less than 2^30 steps), the angles are
2N+1, N being the integer nearest to phiMax/dphi; the first one is -phiMax and the last one phiMax;
they strictly increase; they are symmetric; the inner ones are the multiples of dphi. -/
theorem getPhi_spec (dphi phiMax : K) (hd : 0 < dphi) (hp : dphi ≤ phiMax) (N : Nat)
    (hN : |phiMax / dphi - N| < 1/2) (hint : 2 * N ≤ 2147483647) :
    ∃ l, getPhi dphi phiMax = .ok l ∧ l.length = 2 * N + 1 ∧
      l[0]? = some (-phiMax) ∧ l[2 * N]? = some phiMax ∧
      (∀ i, 0 < i → i < 2 * N → l[i]? = some (((i : K) - N) * dphi)) ∧
      l.Pairwise (· < ·) ∧
      (∀ i, i ≤ 2 * N → ∀ a b, l[i]? = some a → l[2 * N - i]? = some b → a = -b) := by
  have hpos : 0 < phiMax := lt_of_lt_of_le hd hp
  have hq : 1 ≤ phiMax / dphi := by rw [le_div_iff₀ hd]; linarith
  have hspec := stdRound_spec (phiMax / dphi) (by linarith)
  have habs := abs_lt.mp hN
  have hround : stdRound (phiMax / dphi) = (N : Int) := by
    have h1 : (stdRound (phiMax / dphi) : K) < (N : K) + 1 := by linarith
    have h2 : (N : K) < (stdRound (phiMax / dphi) : K) + 1 := by linarith
    have h1' : stdRound (phiMax / dphi) < (N : Int) + 1 := by exact_mod_cast h1
    have h2' : (N : Int) < stdRound (phiMax / dphi) + 1 := by exact_mod_cast h2
    omega
  have hN1 : 1 ≤ N := by
    have := stdRound_pos (phiMax / dphi) hq
    rw [hround] at this
    exact_mod_cast this
  have hphi : phiMax = (phiMax / dphi) * dphi := by rw [div_mul_cancel₀ _ (ne_of_gt hd)]
  have hlow : ((N : K) - 1) * dphi < phiMax := by
    rw [hphi]
    apply mul_lt_mul_of_pos_right _ hd
    linarith
  have hok : getPhi dphi phiMax = .ok (-phiMax ::
      (List.range (2 * N - 1)).map (fun (j : Nat) => (((j : K) + 1) - (N : K)) * dphi) ++ [phiMax]) := by
    unfold getPhi checkInput
    rw [if_neg (by push Not; exact ⟨hd, hpos, hp⟩)]
    simp only [computePhi, hround]
    rw [if_neg (by omega)]
    have : (2 * (N : Int)).toNat - 1 = 2 * N - 1 := by omega
    rw [this, Int.cast_natCast]
  refine ⟨_, hok, ?_, ?_, ?_, ?_, ?_, ?_⟩
  · simp only [List.length_append, List.length_cons, List.length_map, List.length_range,
      List.length_nil]
    omega
  · rfl
  · rw [List.getElem?_append_right (by
      simp only [List.length_cons, List.length_map, List.length_range]; omega)]
    have : 2 * N - (-phiMax :: (List.range (2 * N - 1)).map
        (fun (j : Nat) => (((j : K) + 1) - (N : K)) * dphi)).length = 0 := by
      simp only [List.length_cons, List.length_map, List.length_range]; omega
    rw [this]; rfl
  · intro i h0 h1
    rw [List.getElem?_append_left (by
      simp only [List.length_cons, List.length_map, List.length_range]; omega)]
    obtain ⟨j, rfl⟩ : ∃ j, i = j + 1 := ⟨i - 1, by omega⟩
    rw [List.getElem?_cons_succ, List.getElem?_map, List.getElem?_range (by omega)]
    simp only [Option.map_some, Nat.cast_add, Nat.cast_one]
  · rw [List.pairwise_append]
    refine ⟨?_, List.pairwise_singleton _ _, ?_⟩
    · rw [List.pairwise_cons]
      constructor
      · intro a ha
        obtain ⟨j, hj, rfl⟩ := List.mem_map.mp ha
        have h0 : (0 : K) ≤ (j : K) := Nat.cast_nonneg j
        have : (1 - (N : K)) * dphi ≤ ((j : K) + 1 - N) * dphi :=
          mul_le_mul_of_nonneg_right (by linarith) hd.le
        nlinarith
      · rw [List.pairwise_map]
        apply List.Pairwise.imp _ List.pairwise_lt_range
        intro a b hab
        apply mul_lt_mul_of_pos_right _ hd
        have : (a : K) < b := by exact_mod_cast hab
        linarith
    · intro a ha b hb
      rw [List.mem_singleton] at hb
      subst hb
      rcases List.mem_cons.mp ha with rfl | ha
      · linarith
      · obtain ⟨j, hj, rfl⟩ := List.mem_map.mp ha
        rw [List.mem_range] at hj
        have hj' : (j : K) + 1 ≤ 2 * N - 1 := by
          have : j + 1 + 1 ≤ 2 * N := by omega
          have : ((j + 1 + 1 : Nat) : K) ≤ ((2 * N : Nat) : K) := by exact_mod_cast this
          push_cast at this
          linarith
        have : ((j : K) + 1 - N) * dphi ≤ ((N : K) - 1) * dphi :=
          mul_le_mul_of_nonneg_right (by linarith) hd.le
        linarith
  · -- symmetry
    have hget : ∀ i, i ≤ 2 * N → (-phiMax ::
        (List.range (2 * N - 1)).map (fun (j : Nat) => (((j : K) + 1) - (N : K)) * dphi) ++ [phiMax])[i]? =
        some (if i = 0 then -phiMax else if i = 2 * N then phiMax else ((i : K) - N) * dphi) := by
      intro i hi
      by_cases h0 : i = 0
      · subst h0; rw [if_pos rfl]; rfl
      · rw [if_neg h0]
        by_cases h1 : i = 2 * N
        · rw [if_pos h1, List.getElem?_append_right (by
            simp only [List.length_cons, List.length_map, List.length_range]; omega)]
          have : i - (-phiMax :: (List.range (2 * N - 1)).map
              (fun (j : Nat) => (((j : K) + 1) - (N : K)) * dphi)).length = 0 := by
            simp only [List.length_cons, List.length_map, List.length_range]; omega
          rw [this]; rfl
        · rw [if_neg h1, List.getElem?_append_left (by
            simp only [List.length_cons, List.length_map, List.length_range]; omega)]
          obtain ⟨j, rfl⟩ : ∃ j, i = j + 1 := ⟨i - 1, by omega⟩
          rw [List.getElem?_cons_succ, List.getElem?_map, List.getElem?_range (by omega)]
          simp only [Option.map_some, Nat.cast_add, Nat.cast_one]
    intro i hi a b ha hb
    rw [hget i hi] at ha
    rw [hget (2 * N - i) (by omega)] at hb
    simp only [Option.some.injEq] at ha hb
    rw [← ha, ← hb]
    by_cases h0 : i = 0
    · subst h0
      rw [if_pos rfl, Nat.sub_zero, if_neg (by omega), if_pos rfl]
    · by_cases h1 : i = 2 * N
      · rw [if_neg h0, if_pos h1, if_pos (by omega), neg_neg]
      · rw [if_neg h0, if_neg h1, if_neg (by omega), if_neg (by omega)]
        have : ((2 * N - i : Nat) : K) = 2 * N - i := by
          rw [Nat.cast_sub hi]; push_cast; ring
        rw [this]
        ring

/-- 45 degrees by steps of 10 degrees: N = 5 would be at the boundary; 44 by steps of 10: N = 4 -/
example : |(44 : ℚ) / 10 - (4 : Nat)| < 1/2 ∧
    getPhi (10 : ℚ) 44 = .ok [-44, -30, -20, -10, 0, 10, 20, 30, 44] := by
  constructor
  · norm_num [abs_lt]
  · decide +kernel

end phi

/-! ### C69: equilibrium draft -/

section zeq
variable {K : Type} [Field K] [LinearOrder K] [IsStrictOrderedRing K]

theorem average_between (z : MinMax K) (h : z.min ≤ z.max) :
    z.min ≤ average z ∧ average z ≤ z.max := by
  unfold average
  constructor <;> linarith

/-- one iteration halves the interval, stays inside, and keeps the signs at its ends -/
theorem bisect_spec (F : K → K) (z : MinMax K) (h : z.min ≤ z.max) (h0 : 0 ≤ F z.min)
    (h1 : F z.max ≤ 0) :
    (bisect F z).min ≤ (bisect F z).max ∧ z.min ≤ (bisect F z).min ∧ (bisect F z).max ≤ z.max ∧
      0 ≤ F (bisect F z).min ∧ F (bisect F z).max ≤ 0 := by
  obtain ⟨a, b⟩ := average_between z h
  unfold bisect
  simp only
  split
  · rename_i hF
    exact ⟨a, le_refl _, b, h0, hF.le⟩
  · rename_i hF
    exact ⟨b, a, le_refl _, not_lt.mp hF, h1⟩

theorem bisect_width (F : K → K) (z : MinMax K) :
    (bisect F z).max - (bisect F z).min = (z.max - z.min) / 2 := by
  unfold bisect average
  simp only
  split <;> ring

/-- C69 (termination and bracketing): whatever the function, the search stops after a finite number
of iterations. When the resultant is downwards at the top of the interval and upwards at the bottom,
the result is the middle of an interval of at most 1E-10, inside of the initial one, with the same
signs at its ends. -/
theorem bisectLoop_spec [Archimedean K] (F : K → K) (z : MinMax K) (h : z.min ≤ z.max)
    (h0 : 0 ≤ F z.min) (h1 : F z.max ≤ 0) :
    ∃ N r, ∀ fuel, N ≤ fuel → bisectLoop F fuel z = some r ∧
      ∃ a b, z.min ≤ a ∧ a ≤ b ∧ b ≤ z.max ∧ b - a ≤ 1/10^10 ∧ r = 1/2 * (a + b) ∧
        0 ≤ F a ∧ F b ≤ 0 := by
  -- number of halvings
  have hn : ∃ n : Nat, (z.max - z.min) < 2^n * (1/10^10) := by
    obtain ⟨n, hn⟩ := pow_unbounded_of_one_lt ((z.max - z.min) * 10^10) (one_lt_two (α := K))
    refine ⟨n, ?_⟩
    have : (0 : K) < 10^10 := by positivity
    have := mul_lt_mul_of_pos_right hn (show (0 : K) < 1/10^10 by positivity)
    calc z.max - z.min = (z.max - z.min) * 10^10 * (1/10^10) := by field_simp
      _ < _ := this
  obtain ⟨n, hn⟩ := hn
  induction n generalizing z with
  | zero =>
    refine ⟨0, average z, fun fuel _ => ?_⟩
    have hle : ¬ (1/10^10 : K) < z.max - z.min := by
      rw [pow_zero, one_mul] at hn
      exact not_lt.mpr hn.le
    unfold bisectLoop
    rw [if_neg hle]
    exact ⟨rfl, z.min, z.max, le_refl _, h, le_refl _, not_lt.mp hle, rfl, h0, h1⟩
  | succ n ih =>
    by_cases hlt : (1/10^10 : K) < z.max - z.min
    · obtain ⟨b1, b2, b3, b4, b5⟩ := bisect_spec F z h h0 h1
      obtain ⟨N, r, hr⟩ := ih (bisect F z) b1 b4 b5 (by
        rw [bisect_width]
        rw [pow_succ] at hn
        linarith)
      refine ⟨N + 1, r, fun fuel hf => ?_⟩
      obtain ⟨fuel, rfl⟩ : ∃ k, fuel = k + 1 := ⟨fuel - 1, by omega⟩
      obtain ⟨e, a, b, c1, c2, c3, c4, c5, c6, c7⟩ := hr fuel (by omega)
      unfold bisectLoop
      rw [if_pos hlt]
      exact ⟨e, a, b, le_trans b2 c1, c2, le_trans c3 b3, c4, c5, c6, c7⟩
    · refine ⟨0, average z, fun fuel _ => ?_⟩
      unfold bisectLoop
      rw [if_neg hlt]
      exact ⟨rfl, z.min, z.max, le_refl _, h, le_refl _, not_lt.mp hlt, rfl, h0, h1⟩

/-- C69. When the resultant is a continuous function of the draft, downwards (≥ 0) at the top of the
interval and upwards (≤ 0) at its bottom, the search stops, and there is a draft at which the
resultant vanishes within 1E-10 m of the result. The function need not be monotonic. -/
theorem zeq_equilibrium (F : ℝ → ℝ) (hF : Continuous F) (z : MinMax ℝ) (h : z.min ≤ z.max)
    (h0 : 0 ≤ F z.min) (h1 : F z.max ≤ 0) :
    ∃ N r, (∀ fuel, N ≤ fuel → zeq F fuel z = .ok (some r)) ∧
      ∃ ze, z.min ≤ ze ∧ ze ≤ z.max ∧ F ze = 0 ∧ |r - ze| ≤ 1/10^10 := by
  obtain ⟨N, r, hr⟩ := bisectLoop_spec F z h h0 h1
  refine ⟨N, r, fun fuel hf => ?_, ?_⟩
  · unfold zeq
    rw [if_neg (not_lt.mpr h1), if_neg (not_lt.mpr h0), (hr fuel hf).1]
  · obtain ⟨_, a, b, c1, c2, c3, c4, c5, c6, c7⟩ := hr N (le_refl _)
    obtain ⟨ze, ⟨hz1, hz2⟩, hz⟩ := intermediate_value_Icc' c2 hF.continuousOn
      (show (0 : ℝ) ∈ Set.Icc (F b) (F a) from ⟨c7, c6⟩)
    refine ⟨ze, le_trans c1 hz1, le_trans hz2 c3, hz, ?_⟩
    rw [c5, abs_le]
    constructor <;> linarith

/-- C69: with a resultant that decreases strictly with the draft, the equilibrium is the only one, so
that the result is within 1E-10 m of *the* equilibrium. -/
theorem zeq_unique (F : ℝ → ℝ) (hF : Continuous F) (hanti : StrictAnti F) (z : MinMax ℝ)
    (h : z.min ≤ z.max) (h0 : 0 ≤ F z.min) (h1 : F z.max ≤ 0) (ze : ℝ) (hze : F ze = 0) :
    ∃ N r, (∀ fuel, N ≤ fuel → zeq F fuel z = .ok (some r)) ∧ |r - ze| ≤ 1/10^10 := by
  obtain ⟨N, r, hr, z', _, _, hz', hd⟩ := zeq_equilibrium F hF z h h0 h1
  have : z' = ze := hanti.injective (by rw [hz', hze])
  exact ⟨N, r, hr, this ▸ hd⟩

/-- the hypotheses hold for a floating prism of 4 m: F(z) = 3 - (z + 2) on [-2, 2] -/
example : Continuous (fun z : ℝ => 3 - (z + 2)) ∧ StrictAnti (fun z : ℝ => 3 - (z + 2)) ∧
    (0 : ℝ) ≤ 3 - (-2 + 2) ∧ (3 : ℝ) - (2 + 2) ≤ 0 :=
  ⟨by fun_prop, fun a b h => by simp only; linarith, by norm_num, by norm_num⟩

/-! ### C100: the interval of the search -/

/-- Specification: resultant (gravity minus Archimedes' thrust, downwards) on a vertical prism of
section `A` whose mesh spans [a,b] in the body frame (z downwards), the origin of the body being at
depth z: the immersed height is the part of [z+a, z+b] below zero -/
def prismResultant (weight rhoGA a b z : K) : K :=
  weight - rhoGA * (max (z + b) 0 - max (z + a) 0)

omit [IsStrictOrderedRing K] in
theorem foldl_min_le (zs : List K) (z₁ : K) :
    zs.foldl (fun a b => if b < a then b else a) z₁ ≤ z₁ ∧
      ∀ z ∈ zs, zs.foldl (fun a b => if b < a then b else a) z₁ ≤ z := by
  induction zs generalizing z₁ with
  | nil => exact ⟨le_refl _, by simp⟩
  | cons a l ih =>
    simp only [List.foldl_cons]
    obtain ⟨h1, h2⟩ := ih (if a < z₁ then a else z₁)
    have hz : (if a < z₁ then a else z₁) ≤ z₁ := by
      split
      · rename_i h; exact h.le
      · exact le_refl _
    have ha : (if a < z₁ then a else z₁) ≤ a := by
      split
      · exact le_refl _
      · rename_i h; exact not_lt.mp h
    refine ⟨le_trans h1 hz, fun z hzm => ?_⟩
    rcases List.mem_cons.mp hzm with rfl | hzm
    · exact le_trans h1 ha
    · exact h2 z hzm

omit [IsStrictOrderedRing K] in
theorem foldl_max_ge (zs : List K) (z₁ : K) :
    z₁ ≤ zs.foldl (fun a b => if a < b then b else a) z₁ ∧
      ∀ z ∈ zs, z ≤ zs.foldl (fun a b => if a < b then b else a) z₁ := by
  induction zs generalizing z₁ with
  | nil => exact ⟨le_refl _, by simp⟩
  | cons a l ih =>
    simp only [List.foldl_cons]
    obtain ⟨h1, h2⟩ := ih (if z₁ < a then a else z₁)
    have hz : z₁ ≤ (if z₁ < a then a else z₁) := by
      split
      · rename_i h; exact h.le
      · exact le_refl _
    have ha : a ≤ (if z₁ < a then a else z₁) := by
      split
      · exact le_refl _
      · rename_i h; exact not_lt.mp h
    refine ⟨le_trans hz h1, fun z hzm => ?_⟩
    rcases List.mem_cons.mp hzm with rfl | hzm
    · exact le_trans ha h1
    · exact h2 z hzm

omit [IsStrictOrderedRing K] in
/-- C100: the bounds are the ones of the vertices -/
theorem getZminZmax_bounds (z₁ : K) (zs : List K) : ∀ z ∈ z₁ :: zs,
    (getZminZmax z₁ zs).min ≤ z ∧ z ≤ (getZminZmax z₁ zs).max := by
  intro z hz
  rcases List.mem_cons.mp hz with rfl | hz
  · exact ⟨(foldl_min_le zs _).1, (foldl_max_ge zs _).1⟩
  · exact ⟨(foldl_min_le zs _).2 z hz, (foldl_max_ge zs _).2 z hz⟩

/-- C100 (partial): when the mesh is as high above the origin of the body as it is low below it
(zmin = -zmax), for every continuous resultant that is downwards when all the vertices are out of the
water and upwards when they are all immersed, the search finds an equilibrium. Missing: the other
meshes (`zeq_dense_body`, `zeq_light_body`). -/
theorem symmetric_mesh_partial (F : ℝ → ℝ) (hF : Continuous F) (z₁ : ℝ) (zs : List ℝ)
    (hsym : (getZminZmax z₁ zs).min = -(getZminZmax z₁ zs).max)
    (hout : ∀ z, (∀ v ∈ z₁ :: zs, z + v ≤ 0) → 0 ≤ F z)
    (hin : ∀ z, (∀ v ∈ z₁ :: zs, 0 ≤ z + v) → F z ≤ 0) :
    ∃ N r, (∀ fuel, N ≤ fuel → zeq F fuel (getZminZmax z₁ zs) = .ok (some r)) ∧
      ∃ ze, F ze = 0 ∧ |r - ze| ≤ 1/10^10 := by
  have hb := getZminZmax_bounds z₁ zs
  have h0 : 0 ≤ F (getZminZmax z₁ zs).min := hout _ (fun v hv => by have := (hb v hv).2; linarith)
  have h1 : F (getZminZmax z₁ zs).max ≤ 0 := hin _ (fun v hv => by have := (hb v hv).1; linarith)
  have hle := hb z₁ List.mem_cons_self
  obtain ⟨N, r, hr, ze, _, _, h, hd⟩ := zeq_equilibrium F hF _ (le_trans hle.1 hle.2) h0 h1
  exact ⟨N, r, hr, ze, h, hd⟩

/-- the hypotheses hold for a floating prism -/
example (weight rhoGA b : ℝ) (hb : 0 < b) (hw : 0 ≤ weight) (hlight : weight ≤ rhoGA * (2 * b)) :
    Continuous (prismResultant weight rhoGA (-b) b) ∧
    (getZminZmax (-b) [b]).min = -(getZminZmax (-b) [b]).max ∧
    (∀ z, (∀ v ∈ [-b, b], z + v ≤ 0) → 0 ≤ prismResultant weight rhoGA (-b) b z) ∧
    (∀ z, (∀ v ∈ [-b, b], 0 ≤ z + v) → prismResultant weight rhoGA (-b) b z ≤ 0) := by
  refine ⟨?_, ?_, ?_, ?_⟩
  · unfold prismResultant; fun_prop
  · simp only [getZminZmax, List.foldl_cons, List.foldl_nil]
    rw [if_neg (by linarith), if_pos (by linarith)]
  · intro z h
    have h1 := h b (by simp)
    have h2 := h (-b) (by simp)
    unfold prismResultant
    rw [max_eq_right h1, max_eq_right h2]
    simpa using hw
  · intro z h
    have h1 := h b (by simp)
    have h2 := h (-b) (by simp)
    unfold prismResultant
    rw [max_eq_left h1, max_eq_left h2]
    nlinarith

/-- C100, refutation: the interval should be [-zmax, -zmin]. A prism between 3 m above and 1 m below
its origin that weighs three quarters of the water it can displace floats with its origin at 2 m; the
function returns -3, where the body is entirely out of the water. -/
theorem zeq_dense_body : ∀ fuel,
    prismResultant (3 : ℚ) 1 (-3) 1 2 = 0 ∧
    zeq (prismResultant (3 : ℚ) 1 (-3) 1) fuel (getZminZmax (-3) [1]) = .ok (some (-3)) ∧
    prismResultant (3 : ℚ) 1 (-3) 1 (-3) = 3 := by
  intro fuel
  have h : getZminZmax (-3 : ℚ) [1] = ⟨-3, 1⟩ := by decide +kernel
  refine ⟨by decide +kernel, ?_, by decide +kernel⟩
  rw [h]
  unfold zeq
  rw [if_pos (by decide +kernel)]

/-- C100, refutation: a prism between 1 m above and 3 m below its origin that weighs a quarter of the
water it can displace floats with its origin at -2 m; InternalErrorException is raised. -/
theorem zeq_light_body : ∀ fuel,
    prismResultant (1 : ℚ) 1 (-1) 3 (-2) = 0 ∧
    zeq (prismResultant (1 : ℚ) 1 (-1) 3) fuel (getZminZmax (-1) [3]) = .error internalError := by
  intro fuel
  have h : getZminZmax (-1 : ℚ) [3] = ⟨-1, 3⟩ := by decide +kernel
  refine ⟨by decide +kernel, ?_⟩
  rw [h]
  unfold zeq
  rw [if_neg (by decide +kernel), if_pos (by decide +kernel)]

end zeq

/-! ### C99: Newton-Raphson, C70: trim -/

section newton
variable {K : Type} [Field K] [LinearOrder K] [IsStrictOrderedRing K]

omit [IsStrictOrderedRing K] in
theorem newtonLoop_phi (f : State K → State K) (kc : State K → Mat2 K) (eps : K) (n : Nat)
    (x xp r : State K) (h : newtonLoop f kc eps n x xp = .ok r) : r.phi = x.phi := by
  induction n generalizing x xp with
  | zero => cases h; rfl
  | succ n ih =>
    unfold newtonLoop at h
    simp only at h
    split at h
    · cases h; rfl
    · split at h
      · cases h
      · split at h
        · cases h; rfl
        · have := ih _ _ h
          rw [this]
          rfl

omit [IsStrictOrderedRing K] in
/-- C99: the search never changes the roll angle -/
theorem newton_phi (x0 r : State K) (f : State K → State K) (kc : State K → Mat2 K) (maxIt : Nat)
    (eps : K) (h : newtonRaphson x0 f kc maxIt eps = .ok r) : r.phi = x0.phi :=
  newtonLoop_phi f kc eps maxIt x0 _ r h

omit [IsStrictOrderedRing K] in
/-- an equilibrium is a fixed point: when the three residuals are below eps the search returns its
starting point -/
theorem newton_at_equilibrium (x0 : State K) (f : State K → State K) (kc : State K → Mat2 K)
    (maxIt : Nat) (eps : K)
    (hdet : ¬ |(kc x0).m00 * (kc x0).m11 - (kc x0).m01 * (kc x0).m10| < 1/10^15)
    (hres : dist (f x0) ⟨0, 0, 0⟩ < eps) : newtonRaphson x0 f kc maxIt eps = .ok x0 := by
  unfold newtonRaphson
  cases maxIt with
  | zero => rfl
  | succ n =>
    unfold newtonLoop
    simp only
    rw [if_neg hdet, if_pos hres, ite_self]

/-- Specification: a linear resultant around the equilibrium `xe`: the vertical force and the pitch
moment are given by the matrix `a`, the roll moment is zero -/
def linearResultant (a : Mat2 K) (xe x : State K) : State K :=
  ⟨a.m00 * (x.z - xe.z) + a.m01 * (x.theta - xe.theta), 0,
   a.m10 * (x.z - xe.z) + a.m11 * (x.theta - xe.theta)⟩

/-- the centred finite differences are exact on a linear resultant -/
theorem stiffness_linear (a : Mat2 K) (xe x : State K) (dz dtheta : K) (hz : dz ≠ 0)
    (ht : dtheta ≠ 0) : stiffness (linearResultant a xe) dz dtheta x = a := by
  unfold stiffness linearResultant
  obtain ⟨a00, a01, a10, a11⟩ := a
  simp only [Mat2.mk.injEq]
  refine ⟨?_, ?_, ?_, ?_⟩ <;> field_simp <;> ring

/-- one step of Newton-Raphson reaches the equilibrium of a linear resultant -/
theorem newtonStep_linear (a : Mat2 K) (xe x : State K)
    (hdet : a.m00 * a.m11 - a.m01 * a.m10 ≠ 0) :
    newtonStep x (linearResultant a xe x) a = ⟨xe.z, x.phi, xe.theta⟩ := by
  unfold newtonStep linearResultant
  obtain ⟨a00, a01, a10, a11⟩ := a
  simp only at hdet
  simp only [State.mk.injEq, true_and]
  constructor
  · rw [show a11 * (a00 * (x.z - xe.z) + a01 * (x.theta - xe.theta)) -
        a01 * (a10 * (x.z - xe.z) + a11 * (x.theta - xe.theta)) =
        (x.z - xe.z) * (a00 * a11 - a01 * a10) by ring, mul_div_assoc, div_self hdet]
    ring
  · rw [show a00 * (a10 * (x.z - xe.z) + a11 * (x.theta - xe.theta)) -
        a10 * (a00 * (x.z - xe.z) + a01 * (x.theta - xe.theta)) =
        (x.theta - xe.theta) * (a00 * a11 - a01 * a10) by ring, mul_div_assoc, div_self hdet]
    ring

/-- C99. At the heel of the starting point the resultant is linear in the depth and the trim, with a non-singular stiffness (at the other heels it may be anything): the search
from any starting point whose residual is not already negligible returns the exact equilibrium for this heel. -/
theorem newton_heeled (f : State K → State K) (a : Mat2 K) (xe x0 : State K) (hf : ∀ z theta, f ⟨z, x0.phi, theta⟩ = linearResultant a xe ⟨z, x0.phi, theta⟩) (dz dtheta : K)
    (hz : dz ≠ 0) (ht : dtheta ≠ 0) (hdet : 1/10^15 ≤ |a.m00 * a.m11 - a.m01 * a.m10|) (eps : K) (heps : 0 < eps)
    (n : Nat) (hres : eps ≤ dist (f x0) ⟨0, 0, 0⟩) :
    newtonRaphson x0 f (stiffness f dz dtheta) (n + 2) eps = .ok ⟨xe.z, x0.phi, xe.theta⟩ := by
  have hdet0 : a.m00 * a.m11 - a.m01 * a.m10 ≠ 0 := by
    intro h
    rw [h, abs_zero] at hdet
    have : (0 : K) < 1/10^15 := by positivity
    linarith
  have hs : ∀ z theta, stiffness f dz dtheta ⟨z, x0.phi, theta⟩ = a := by
    intro z theta
    rw [← stiffness_linear a xe ⟨z, x0.phi, theta⟩ dz dtheta hz ht]
    simp only [stiffness, hf]
  obtain ⟨z0, phi0, theta0⟩ := x0
  simp only at hf hs hres
  unfold newtonRaphson newtonLoop
  simp only [hs, hf, newtonStep_linear a xe _ hdet0]
  rw [hf] at hres
  rw [if_neg, if_neg (not_lt.mpr hdet), if_neg (not_lt.mpr hres)]
  · unfold newtonLoop
    simp only [hs, hf]
    split
    · rfl
    · rw [if_neg (not_lt.mpr hdet), if_pos]
      unfold dist linearResultant
      simp only [sub_self, mul_zero, add_zero, abs_zero, max_self]
      exact heps
  · unfold dist
    simp only [not_lt]
    refine le_trans ?_ (le_max_right _ _)
    rw [show theta0 - (theta0 + 2 * eps) = -(2 * eps) by ring, abs_neg, abs_of_pos (by linarith)]
    linarith

/-- C99. On a linear resultant with a non-singular stiffness, the search from any starting point
whose residual is not already negligible returns the exact equilibrium. -/
theorem newton_linear (a : Mat2 K) (xe x0 : State K) (dz dtheta : K) (hz : dz ≠ 0)
    (ht : dtheta ≠ 0) (hdet : 1/10^15 ≤ |a.m00 * a.m11 - a.m01 * a.m10|) (eps : K) (heps : 0 < eps)
    (n : Nat) (hres : eps ≤ dist (linearResultant a xe x0) ⟨0, 0, 0⟩) :
    newtonRaphson x0 (linearResultant a xe) (stiffness (linearResultant a xe) dz dtheta) (n + 2) eps =
      .ok ⟨xe.z, x0.phi, xe.theta⟩ :=
  newton_heeled _ a xe x0 (fun _ _ => rfl) dz dtheta hz ht hdet eps heps n hres

/-- a hull heeled by 1/2, that sinks and trims with the heel -/
example : newtonRaphson (⟨0, 1/2, 0⟩ : State ℚ) (fun x => linearResultant ⟨-4, 1, 1, -100⟩ ⟨3 - x.phi, x.phi, x.phi * x.phi⟩ x)
    (stiffness (fun x => linearResultant ⟨-4, 1, 1, -100⟩ ⟨3 - x.phi, x.phi, x.phi * x.phi⟩ x) (1/10) (1/100)) 100 (1/10^6) =
      .ok ⟨5/2, 1/2, 1/4⟩ := by decide +kernel

/-- a hull whose stiffness is [[-4, 1], [1, -100]], trimmed by 0.05 rad -/
example : newtonRaphson (⟨0, 0, 0⟩ : State ℚ) (linearResultant ⟨-4, 1, 1, -100⟩ ⟨3, 0, 1/20⟩)
    (stiffness (linearResultant ⟨-4, 1, 1, -100⟩ ⟨3, 0, 1/20⟩) (1/10) (1/100)) 100 (1/10^6) =
      .ok ⟨3, 0, 1/20⟩ := by decide +kernel

omit [IsStrictOrderedRing K] in
/-- C70 does not hold: whatever the resultant, the trim of the GZ curve is zero (the result of the
Newton-Raphson search is not used). -/
theorem theta_eq_always_zero (f : State K → State K) (kc : State K → Mat2 K) (bounds : K → MinMax K)
    (fuel : Nat) (x : State K) (h : getXeq f kc bounds fuel = .ok (some x)) :
    x.theta = 0 ∧ x.phi = 0 := by
  unfold getXeq at h
  split at h
  · cases h
  · cases h
  · simp only at h
    split at h
    · cases h
    · cases h; exact ⟨rfl, rfl⟩

/-- C70 (partial): the trim is the one of the equilibrium for the bodies that are in equilibrium
without trim, i.e. whose pitch moment is zero at theta = 0. Missing: the bodies that are trimmed at
equilibrium (`trimmed_body`). -/
theorem theta_eq_untrimmed_partial (f : State K → State K) (kc : State K → Mat2 K)
    (bounds : K → MinMax K) (fuel : Nat) (x : State K)
    (h : getXeq f kc bounds fuel = .ok (some x)) (heq : ∀ z, (f ⟨z, 0, 0⟩).theta = 0) :
    (f x).theta = 0 := by
  obtain ⟨h1, h2⟩ := theta_eq_always_zero f kc bounds fuel x h
  have : x = ⟨x.z, 0, 0⟩ := by cases x; simp only at h1 h2; rw [h1, h2]
  rw [this]
  exact heq _

/-- C70, refutation: a body in equilibrium at z = 0 with a trim of 0.05 rad; the state of the curve
has no trim, and the pitch moment is not zero there. -/
theorem trimmed_body : ∃ fuel x,
    getXeq (linearResultant ⟨-4, 0, 0, -100⟩ (⟨0, 0, 1/20⟩ : State ℚ))
      (stiffness (linearResultant ⟨-4, 0, 0, -100⟩ ⟨0, 0, 1/20⟩) (1/10) (1/100))
      (fun _ => ⟨-1/10^10, 1/10^10⟩) fuel = .ok (some x) ∧
    (linearResultant ⟨-4, 0, 0, -100⟩ (⟨0, 0, 1/20⟩ : State ℚ) x).theta = 5 ∧
    newtonRaphson x (linearResultant ⟨-4, 0, 0, -100⟩ (⟨0, 0, 1/20⟩ : State ℚ))
      (stiffness (linearResultant ⟨-4, 0, 0, -100⟩ ⟨0, 0, 1/20⟩) (1/10) (1/100)) 100 (1/10^6) =
      .ok ⟨0, 0, 1/20⟩ :=
  ⟨40, ⟨1/(2*10^10), 0, 0⟩, by decide +kernel, by decide +kernel, by decide +kernel⟩

end newton

end Xdyn.GZ

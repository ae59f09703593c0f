import Verif.Props.ClosingFacet
import Verif.Lemmas.Hdb
import Mathlib.Tactic.IntervalCases
import Mathlib.Analysis.SpecialFunctions.Complex.Arg
import Mathlib.Analysis.SpecialFunctions.Trigonometric.Angle
import Mathlib.Analysis.SpecialFunctions.Trigonometric.Arctan

/-!
Property C122: the turns taken by the contour at the nodes where several edges meet; property C111: open contours.
-/

namespace Xdyn.Closing

open Hull

/-! ### Angles -/

/-- `constrain` is the reduction to [0, 2π), except within 1e-14 of 2π. -/
theorem constrain_spec {θ : ℝ} (k : ℤ) (h0 : 0 ≤ θ) (h1 : θ ≤ 2 * Real.pi - 1 / 10 ^ 14) : constrain (θ + k * (2 * Real.pi)) = θ := by
  have hpi := Real.pi_pos
  have h2 : (0 : ℝ) < 2 * Real.pi := by linarith
  have hlt : θ < 2 * Real.pi := by
    have : (0 : ℝ) < 1 / 10 ^ 14 := by norm_num
    linarith
  have hdiv : (θ + k * (2 * Real.pi)) / (2 * Real.pi) = θ / (2 * Real.pi) + k := by field_simp
  have hq0 : 0 ≤ θ / (2 * Real.pi) := by positivity
  have hq1 : θ / (2 * Real.pi) < 1 := by rw [div_lt_one h2]; exact hlt
  have hlast : ∀ x : ℝ, x = θ → (if |x - 2 * Real.pi| < 1 / 10 ^ 14 then (0 : ℝ) else x) = θ := by
    rintro x rfl
    rw [if_neg]
    rw [abs_of_nonpos (by linarith)]
    linarith
  unfold constrain fmod
  simp only [hdiv]
  apply hlast
  by_cases hk : 0 ≤ θ / (2 * Real.pi) + k
  · have hfl : ⌊θ / (2 * Real.pi) + k⌋ = k := by
      rw [Int.floor_add_intCast, Int.floor_eq_zero_iff.mpr ⟨hq0, hq1⟩, zero_add]
    rw [if_pos hk, hfl]
    have e : θ + k * (2 * Real.pi) - 2 * Real.pi * k = θ := by ring
    rw [e, if_neg (by linarith)]
  · rw [if_neg hk]
    rcases h0.eq_or_lt with h | h
    · subst h
      simp only [zero_div, zero_add, Int.ceil_intCast]
      have e : k * (2 * Real.pi) - 2 * Real.pi * k = 0 := by ring
      rw [e]; simp
    · have hc : ⌈θ / (2 * Real.pi) + k⌉ = k + 1 := by
        have : ⌈θ / (2 * Real.pi)⌉ = 1 := by
          rw [Int.ceil_eq_iff]
          constructor
          · push_cast; simp only [sub_self]; positivity
          · push_cast; exact hq1.le
        rw [Int.ceil_add_intCast, this]
        ring
      rw [hc]
      push_cast
      have e : θ + k * (2 * Real.pi) - 2 * Real.pi * (k + 1) = θ - 2 * Real.pi := by ring
      rw [e, if_pos (by linarith)]
      ring

/-- The difference of the two `atan2`: `w` is `u` turned by `alpha` (and scaled). -/
theorem atan2_turn {ux uy rho alpha : ℝ} (hu : ux ≠ 0 ∨ uy ≠ 0) (hr : 0 < rho) :
    ∃ k : ℤ, atan2 (rho * (Real.sin alpha * ux + Real.cos alpha * uy)) (rho * (Real.cos alpha * ux - Real.sin alpha * uy)) - atan2 (-uy) (-ux) =
      (alpha + Real.pi) + k * (2 * Real.pi) := by
  unfold atan2
  set a : ℂ := ⟨-ux, -uy⟩ with ha
  have ha0 : a ≠ 0 := by
    intro h
    have h1 := congrArg Complex.re h
    have h2 := congrArg Complex.im h
    simp [ha] at h1 h2
    rcases hu with h | h
    · exact h h1
    · exact h h2
  have hw : (⟨rho * (Real.cos alpha * ux - Real.sin alpha * uy), rho * (Real.sin alpha * ux + Real.cos alpha * uy)⟩ : ℂ) =
      ((rho : ℂ) * (Real.cos (alpha + Real.pi) + Real.sin (alpha + Real.pi) * Complex.I)) * a := by
    apply Complex.ext
    · simp [ha, Complex.mul_re, Complex.mul_im, -Complex.ofReal_cos, -Complex.ofReal_sin]; ring
    · simp [ha, Complex.mul_re, Complex.mul_im, -Complex.ofReal_cos, -Complex.ofReal_sin]; ring
  rw [hw]
  have hz : (rho : ℂ) * (Real.cos (alpha + Real.pi) + Real.sin (alpha + Real.pi) * Complex.I) ≠ 0 := by
    intro h
    have h1 := congrArg Complex.re h
    have h2 := congrArg Complex.im h
    simp [-Complex.ofReal_cos, -Complex.ofReal_sin, hr.ne'] at h1 h2
    have := Real.sin_sq_add_cos_sq alpha
    rw [h1, h2] at this
    norm_num at this
  have hang := Complex.arg_mul_coe_angle hz ha0
  have h3 : (((rho : ℂ) * (Real.cos (alpha + Real.pi) + Real.sin (alpha + Real.pi) * Complex.I)).arg : Real.Angle) = ((alpha + Real.pi : ℝ) : Real.Angle) := by
    have := Complex.arg_mul_cos_add_sin_mul_I_coe_angle hr ((alpha + Real.pi : ℝ) : Real.Angle)
    simpa only [Real.Angle.cos_coe, Real.Angle.sin_coe] using this
  rw [h3, ← Real.Angle.coe_add, Real.Angle.angle_eq_iff_two_pi_dvd_sub] at hang
  obtain ⟨k, hk⟩ := hang
  exact ⟨k, by linear_combination hk⟩

/-! ### C122: the turn at a node -/

/-- The edge `ab` is run from `a` to `b` and followed by an edge between `b` and `c`: if the direction turns by the angle `alpha` (positive to
the side of the y axis when running along the x axis), the number compared by the walk is `π + alpha` when alpha is positive, and
`-(π + alpha)` when it is negative. -/
theorem turn_between_edges (C : Computer) {a b c : Nat} {cd : Edge} (hab : a ≠ b) (hbc : b ≠ c) (hac : a ≠ c) (hcd : cd = (b, c) ∨ cd = (c, b))
    {rho alpha : ℝ} (hr : 0 < rho) (h1 : -Real.pi < alpha) (h2 : alpha ≤ Real.pi - 1 / 10 ^ 14)
    (hne : (vsub (col C.nodes b) (col C.nodes a)).x ≠ 0 ∨ (vsub (col C.nodes b) (col C.nodes a)).y ≠ 0)
    (hx : (vsub (col C.nodes c) (col C.nodes b)).x = rho * (Real.cos alpha * (vsub (col C.nodes b) (col C.nodes a)).x - Real.sin alpha * (vsub (col C.nodes b) (col C.nodes a)).y))
    (hy : (vsub (col C.nodes c) (col C.nodes b)).y = rho * (Real.sin alpha * (vsub (col C.nodes b) (col C.nodes a)).x + Real.cos alpha * (vsub (col C.nodes b) (col C.nodes a)).y)) :
    angleBetween C (a, b) cd false = .ok (if alpha < 0 then -(Real.pi + alpha) else Real.pi + alpha) := by
  have hpi := Real.pi_pos
  have hcn : commonNode (a, b) cd false = .ok b := by
    rcases hcd with h | h <;> subst h <;> simp [commonNode, commonNodes, hab, hbc, hbc.symm, hac, hab.symm]
  have hc : (if cd.1 = b then cd.2 else cd.1) = c := by
    rcases hcd with h | h <;> subst h <;> simp [hbc.symm]
  unfold angleBetween
  simp only [hcn, bind, Except.bind, pure, Except.pure, hc]
  set u := vsub (col C.nodes b) (col C.nodes a) with hu
  have hBAx : (vsub (col C.nodes a) (col C.nodes b)).x = -u.x := by simp [hu, vsub]
  have hBAy : (vsub (col C.nodes a) (col C.nodes b)).y = -u.y := by simp [hu, vsub]
  obtain ⟨k, hk⟩ := atan2_turn (alpha := alpha) hne hr
  have hz : (vcross (vscale (-1) (vsub (col C.nodes a) (col C.nodes b))) (vsub (col C.nodes c) (col C.nodes b))).z = rho * (u.x * u.x + u.y * u.y) * Real.sin alpha := by
    simp only [vcross, vscale, hBAx, hBAy, hx, hy]
    ring
  have hpos : 0 < rho * (u.x * u.x + u.y * u.y) := by
    apply mul_pos hr
    rcases hne with h | h
    · have := mul_self_pos.mpr h
      have := mul_self_nonneg u.y
      linarith
    · have := mul_self_pos.mpr h
      have := mul_self_nonneg u.x
      linarith
  rw [hz, hx, hy, hBAx, hBAy, hk, constrain_spec k (by linarith) (by linarith)]
  have hlt : alpha < Real.pi := by
    have : (0 : ℝ) < 1 / 10 ^ 14 := by norm_num
    linarith
  by_cases hneg : alpha < 0
  · rw [if_pos hneg, if_pos (mul_neg_of_pos_of_neg hpos (Real.sin_neg_of_neg_of_neg_pi_lt hneg h1))]
    congr 1
    ring
  · rw [if_neg hneg, if_neg (not_lt.mpr (mul_nonneg hpos.le (Real.sin_nonneg_of_nonneg_of_le_pi (not_lt.mp hneg) hlt.le)))]
    congr 1
    ring

theorem bestAngle_spec (lowest allNeg : Bool) : ∀ (l : List ℝ) (i idx : Nat) (a : ℝ) (all : List ℝ),
    (∀ x ∈ a :: l, 1 / 10 ^ 10 ≤ |x - Real.pi|) → (∀ j, l[j]? = all[i + j]?) → all[idx]? = some a → idx < i →
    (∀ j < i, ∀ x, all[j]? = some x → if lowest then a ≤ x else x ≤ a) →
    ∃ b, all[bestAngle lowest allNeg i l idx a]? = some b ∧ ∀ x ∈ all, if lowest then b ≤ x else x ≤ b := by
  intro l
  induction l with
  | nil =>
    intro i idx a all _ hl hidx _ hbest
    refine ⟨a, hidx, ?_⟩
    intro x hx
    obtain ⟨j, hj⟩ := List.mem_iff_getElem?.mp hx
    refine hbest j ?_ x hj
    by_contra hc
    have := hl (j - i)
    rw [show i + (j - i) = j by omega, hj] at this
    simp at this
  | cons new l ih =>
    intro i idx a all hpi hl hidx hlt hbest
    have hnew : all[i]? = some new := by
      have := hl 0
      simpa using this.symm
    have hl' : ∀ j, l[j]? = all[i + 1 + j]? := by
      intro j
      have := hl (j + 1)
      rw [show i + 1 + j = i + (j + 1) by omega, ← this]
      simp
    have e : (if |a - Real.pi| < 1 / 10 ^ 10 ∧ allNeg = true then -Real.pi else a) = a := if_neg (fun h => absurd h.1 (not_lt.mpr (hpi a (by simp))))
    unfold bestAngle
    simp only [e]
    by_cases hc : (if lowest = true then decide (new < a) else decide (new > a)) = true
    · rw [if_pos hc]
      refine ih (i + 1) i new all (fun x hx => hpi x (by simp at hx ⊢; tauto)) hl' hnew (by omega) ?_
      intro j hj x hx
      rcases Nat.lt_succ_iff_lt_or_eq.mp hj with h | h
      · have := hbest j h x hx
        cases lowest <;> simp at hc this ⊢ <;> linarith
      · subst h
        rw [hnew] at hx
        cases hx
        cases lowest <;> simp
    · rw [if_neg hc]
      refine ih (i + 1) idx a all (fun x hx => hpi x (by simp at hx ⊢; tauto)) hl' hidx (by omega) ?_
      intro j hj x hx
      rcases Nat.lt_succ_iff_lt_or_eq.mp hj with h | h
      · exact hbest j h x hx
      · subst h
        rw [hnew] at hx
        cases hx
        cases lowest <;> simp at hc ⊢ <;> linarith

theorem mem_nodeEdges {E : List Edge} {n i : Nat} : i ∈ nodeEdges E n ↔ EndOf E i n := by
  unfold nodeEdges touches EndOf
  rw [List.mem_filter, List.mem_range]
  constructor
  · rintro ⟨h1, h2⟩
    rw [List.getElem?_eq_getElem h1] at h2 ⊢
    exact ⟨_, rfl, by simpa using h2⟩
  · rintro ⟨e, he, h⟩
    refine ⟨(List.getElem?_eq_some_iff.mp he).1, ?_⟩
    rw [he]
    simpa using h

/-- The node at which the walk leaves the edge `ab`. -/
def farEnd (ab : Edge) (reverse : Bool) : Nat := if reverse then ab.1 else ab.2

/-- The edge which follows the edge `e` leaves from the node where `e` ends, and is not `e`. -/
theorem next_edge_connected (C : Computer) {e i : Nat} {r : Bool} (h : nextEdge C e r = .ok i) :
    ∃ ab, C.edges[e]? = some ab ∧ EndOf C.edges i (farEnd ab r) ∧ i ≠ e := by
  unfold nextEdge at h
  rcases hab : C.edges[e]? with _ | ab
  · rw [hab] at h
    simp [bind, Except.bind] at h
  · refine ⟨ab, rfl, ?_⟩
    rw [hab] at h
    simp only [bind, Except.bind, pure, Except.pure] at h
    change (if (nodeEdges C.edges (farEnd ab r)).filter (fun i => i != e) = [] then _ else _) = _ at h
    split at h
    · simp at h
    · split at h
      · simp at h
      · rename_i v hv
        split at h
        · simp at h
        · have hm : i ∈ List.filter (fun i => i != e) (nodeEdges C.edges (farEnd ab r)) := by
            unfold getAt at h
            split at h
            · rename_i hg
              simp only [Except.ok.injEq] at h
              subst h
              exact List.mem_of_getElem? hg
            · simp at h
          rw [List.mem_filter, mem_nodeEdges] at hm
          exact ⟨hm.1, by simpa using hm.2⟩

/-- **C122 (true part)** Among the edges which leave from the end of the edge `e`, the walk takes the one whose number (see `turn_between_edges`) is the
lowest, or the highest on the sides of the mesh, provided that none of them goes straight on. -/
theorem next_edge_extreme_partial (C : Computer) {e i : Nat} {r : Bool} {ab : Edge} (hab : C.edges[e]? = some ab)
    (hpi : ∀ j cd a, j ≠ e → C.edges[j]? = some cd → EndOf C.edges j (farEnd ab r) → angleBetween C ab cd r = .ok a → 1 / 10 ^ 10 ≤ |a - Real.pi|)
    (h : nextEdge C e r = .ok i) :
    ∃ cd a, C.edges[i]? = some cd ∧ angleBetween C ab cd r = .ok a ∧
      ∀ j cd', j ≠ e → C.edges[j]? = some cd' → EndOf C.edges j (farEnd ab r) → ∃ a', angleBetween C ab cd' r = .ok a' ∧
        if keepLowest C (col C.nodes (farEnd ab r)).x (col C.nodes (farEnd ab r)).y r then a ≤ a' else a' ≤ a := by
  unfold nextEdge at h
  rw [hab] at h
  simp only [bind, Except.bind, pure, Except.pure] at h
  change (if (nodeEdges C.edges (farEnd ab r)).filter (fun i => i != e) = [] then _ else _) = _ at h
  set L := (nodeEdges C.edges (farEnd ab r)).filter (fun i => i != e) with hL
  have hmem : ∀ j, j ∈ L ↔ EndOf C.edges j (farEnd ab r) ∧ j ≠ e := by
    intro j
    rw [hL, List.mem_filter, mem_nodeEdges]
    simp
  split at h
  · simp at h
  · split at h
    · simp at h
    · rename_i angles hang
      change List.mapM _ L = _ at hang
      have hinv := Hdb.mapM_inv hang
      have hval : ∀ (k j : Nat), L[k]? = some j → ∃ cd a, C.edges[j]? = some cd ∧ angles[k]? = some a ∧ angleBetween C ab cd r = .ok a := by
        intro k j hk
        obtain ⟨a, h1, h2⟩ := hinv.2 k j hk
        obtain ⟨⟨cd, hcd, -⟩, -⟩ := (hmem j).mp (List.mem_of_getElem? hk)
        rw [hcd] at h2
        exact ⟨cd, a, hcd, h1, h2⟩
      have hfar : ∀ x ∈ angles, 1 / 10 ^ 10 ≤ |x - Real.pi| := by
        intro x hx
        obtain ⟨k, hk⟩ := List.mem_iff_getElem?.mp hx
        have hlt : k < L.length := by
          have := (List.getElem?_eq_some_iff.mp hk).1
          omega
        obtain ⟨cd, a, h1, h2, h3⟩ := hval k _ (List.getElem?_eq_getElem hlt)
        rw [hk] at h2
        cases h2
        obtain ⟨he, hne⟩ := (hmem _).mp (List.getElem_mem hlt)
        exact hpi _ cd x hne h1 he h3
      split at h
      · simp at h
      · rename_i a l
        obtain ⟨b, hb, hbest⟩ := bestAngle_spec (keepLowest C (col C.nodes (farEnd ab r)).x (col C.nodes (farEnd ab r)).y r) (allNegative (a :: l)) l 1 0 a (a :: l) hfar
          (fun j => by rw [Nat.add_comm]; simp) (by simp) (by omega) (fun j hj x hx => by
            have : j = 0 := by omega
            subst this
            simp at hx
            subst hx
            simp)
        have hlt := (List.getElem?_eq_some_iff.mp hb).1
        rw [hinv.1] at hlt
        change getAt L (bestAngle (keepLowest C (col C.nodes (farEnd ab r)).x (col C.nodes (farEnd ab r)).y r) (allNegative (a :: l)) 1 l 0 a) = _ at h
        generalize bestAngle (keepLowest C (col C.nodes (farEnd ab r)).x (col C.nodes (farEnd ab r)).y r) (allNegative (a :: l)) 1 l 0 a = q at hb hlt h
        unfold getAt at h
        rw [List.getElem?_eq_getElem hlt] at h
        simp only [Except.ok.injEq] at h
        obtain ⟨cd, a', h1, h2, h3⟩ := hval q _ (List.getElem?_eq_getElem hlt)
        rw [h] at h1
        rw [hb] at h2
        cases h2
        refine ⟨cd, b, h1, h3, ?_⟩
        intro j cd' hj hcd' hend
        obtain ⟨k, hk⟩ := List.mem_iff_getElem?.mp ((hmem j).mpr ⟨hend, hj⟩)
        obtain ⟨cd2, a2, g1, g2, g3⟩ := hval k j hk
        rw [hcd'] at g1
        cases g1
        exact ⟨a2, g3, hbest a2 (List.mem_of_getElem? g2)⟩

/-- The number compared when an edge is run backwards is not a function of the direction in which the next edge leaves: two nodes on the same half line
from the junction give different numbers.  (The edge (0, 1) is run from the node 1 to the junction 0.) -/
theorem reversed_turn_refuted :
    ∃ C : Computer, (∃ t : ℝ, 0 < t ∧ vsub (col C.nodes 3) (col C.nodes 0) = vscale t (vsub (col C.nodes 2) (col C.nodes 0))) ∧
      ∃ a b, angleBetween C (0, 1) (0, 2) true = .ok a ∧ angleBetween C (0, 1) (0, 3) true = .ok b ∧ a ≠ b := by
  refine ⟨⟨[⟨0, 0, 0⟩, ⟨-1, 0, 0⟩, ⟨1, 1, 0⟩, ⟨2, 2, 0⟩], [(0, 1), (0, 2), (0, 3)], [0, 1, 2], -1, 2, 2⟩, ⟨2, by norm_num, ?_⟩, ?_⟩
  · norm_num [vsub, vscale, col]
  · have hpi := Real.pi_pos
    have key : ∀ y x : ℝ, 0 < x → 0 < y → constrain (atan2 y x - atan2 0 1) = atan2 y x := by
      intro y x hx hy
      have h0 : atan2 0 1 = 0 := by
        have : (⟨1, 0⟩ : ℂ) = 1 := rfl
        unfold atan2
        rw [this, Complex.arg_one]
      have hp : 0 ≤ atan2 y x := Complex.arg_nonneg_iff.mpr hy.le
      have hq := Complex.arg_le_pi ⟨x, y⟩
      rw [h0]
      have := constrain_spec (θ := atan2 y x) 0 hp (by
        have : (1 : ℝ) / 10 ^ 14 < 1 := by norm_num
        have := Real.two_le_pi
        unfold atan2
        linarith)
      simpa using this
    have htan : ∀ y x : ℝ, Real.tan (atan2 y x) = y / x := fun y x => Complex.tan_arg ⟨x, y⟩
    refine ⟨_, _, rfl, rfl, ?_⟩
    norm_num [vsub, vscale, vcross, col]
    rw [key 1 2 (by norm_num) (by norm_num), key 2 3 (by norm_num) (by norm_num)]
    intro h
    have := congrArg Real.tan h
    rw [htan, htan] at this
    norm_num at this

/-- The edge taken at a junction depends on the order in which the edges are stored: after the edge from (-1, 0) to (0, 0), one edge goes straight on
and the other one turns right; whichever of them is stored first is taken. -/
theorem next_edge_order_refuted :
    let nodes : List (Pt ℝ) := [⟨-1, 0, 0⟩, ⟨0, 0, 0⟩, ⟨1, 0, 0⟩, ⟨1, -1, 0⟩]
    nextEdge ⟨nodes, [(0, 1), (1, 2), (1, 3)], [0, 1, 2], -1, 1, 0⟩ 0 false = .ok 1 ∧
    nextEdge ⟨nodes, [(0, 1), (1, 3), (1, 2)], [0, 1, 2], -1, 1, 0⟩ 0 false = .ok 1 := by
  intro nodes
  have hpi := Real.pi_pos
  have h3 := Real.two_le_pi
  have straight : ∀ C : Computer, C.nodes = nodes → angleBetween C (0, 1) (1, 2) false = .ok Real.pi := by
    intro C hC
    rw [turn_between_edges C (c := 2) (rho := 1) (alpha := 0) (by decide) (by decide) (by decide) (Or.inl rfl) one_pos (by linarith) (by
      have : (1 : ℝ) / 10 ^ 14 < 1 := by norm_num
      linarith)]
    · simp
    all_goals (rw [hC]; norm_num [vsub, col, nodes])
  have right : ∀ C : Computer, C.nodes = nodes → angleBetween C (0, 1) (1, 3) false = .ok (-(Real.pi + -(Real.pi / 4))) := by
    intro C hC
    rw [turn_between_edges C (c := 3) (rho := Real.sqrt 2) (alpha := -(Real.pi / 4)) (by decide) (by decide) (by decide) (Or.inl rfl) (by positivity) (by linarith) (by
      have : (1 : ℝ) / 10 ^ 14 < 1 := by norm_num
      linarith)]
    · rw [if_pos (by linarith)]
    · rw [hC]; norm_num [vsub, col, nodes]
    · rw [hC, Real.cos_neg, Real.cos_pi_div_four]
      norm_num [vsub, col, nodes]
      have := Real.mul_self_sqrt (show (0 : ℝ) ≤ 2 by norm_num)
      linarith
    · rw [hC, Real.sin_neg, Real.sin_pi_div_four]
      norm_num [vsub, col, nodes]
      have := Real.mul_self_sqrt (show (0 : ℝ) ≤ 2 by norm_num)
      linarith
  have small : (1 : ℝ) / 10 ^ 10 < 1 := by norm_num
  have e0 : |Real.pi - Real.pi| = 0 := by simp
  have e1 : 1 / 10 ^ 10 < |(|(-(Real.pi + -(Real.pi / 4)))| - Real.pi)| := by
    rw [abs_of_neg (a := -(Real.pi + -(Real.pi / 4))) (by linarith), abs_of_neg (by linarith)]
    have : (1 : ℝ) / 10 ^ 10 < 1 / 2 := by norm_num
    linarith
  have e2 : ¬ |-(Real.pi + -(Real.pi / 4)) - Real.pi| < 1 / 10 ^ 10 := by
    rw [abs_of_neg (by linarith)]
    linarith
  constructor
  · have hf : (nodeEdges [(0, 1), (1, 2), (1, 3)] 1).filter (fun i => i != 0) = [1, 2] := by decide
    have hn : allNegative [Real.pi, -(Real.pi + -(Real.pi / 4))] = true := by
      unfold allNegative
      simp only [List.all_cons, List.all_nil, Bool.and_true, Bool.and_eq_true]
      constructor
      · rw [if_neg (by rw [abs_of_pos hpi, e0]; norm_num)]
      · rw [if_pos e1]
        simp only [decide_eq_true_eq]
        linarith
    have hk : keepLowest ⟨nodes, [(0, 1), (1, 2), (1, 3)], [0, 1, 2], -1, 1, 0⟩ 0 0 false = true := by
      norm_num [keepLowest]
    unfold nextEdge
    simp only [List.getElem?_cons_zero, bind, Except.bind, pure, Except.pure, Bool.false_eq_true, if_false, hf, List.mapM_cons, List.mapM_nil, List.getElem?_cons_succ,
      straight, right, reduceCtorEq]
    have hc : col nodes 1 = ⟨0, 0, 0⟩ := rfl
    rw [hc, hn, hk]
    have e3 : (if |Real.pi - Real.pi| < 1 / 10 ^ 10 ∧ true = true then -Real.pi else Real.pi) = -Real.pi := if_pos ⟨by rw [e0]; norm_num, rfl⟩
    unfold bestAngle
    simp only [e3, if_true]
    rw [if_neg (by simp only [decide_eq_true_eq]; linarith)]
    rfl
  · have hf : (nodeEdges [(0, 1), (1, 3), (1, 2)] 1).filter (fun i => i != 0) = [1, 2] := by decide
    have hk : keepLowest ⟨nodes, [(0, 1), (1, 3), (1, 2)], [0, 1, 2], -1, 1, 0⟩ 0 0 false = true := by
      norm_num [keepLowest]
    unfold nextEdge
    simp only [List.getElem?_cons_zero, bind, Except.bind, pure, Except.pure, Bool.false_eq_true, if_false, hf, List.mapM_cons, List.mapM_nil, List.getElem?_cons_succ,
      straight, right, reduceCtorEq]
    have hc : col nodes 1 = ⟨0, 0, 0⟩ := rfl
    rw [hc, hk]
    have e3 : (if |-(Real.pi + -(Real.pi / 4)) - Real.pi| < 1 / 10 ^ 10 ∧ allNegative [-(Real.pi + -(Real.pi / 4)), Real.pi] = true then -Real.pi else -(Real.pi + -(Real.pi / 4))) =
      -(Real.pi + -(Real.pi / 4)) := if_neg (fun h => e2 h.1)
    unfold bestAngle
    simp only [e3, if_true]
    rw [if_neg (by simp only [decide_eq_true_eq]; linarith)]
    rfl

/-- The hypotheses of `next_edge_extreme_partial` hold at a junction with one edge to the left and one edge to the right: the edge to the right is taken. -/
theorem next_edge_example :
    let C : Computer := ⟨[⟨-1, 0, 0⟩, ⟨0, 0, 0⟩, ⟨1, 1, 0⟩, ⟨1, -1, 0⟩], [(0, 1), (1, 2), (1, 3)], [0, 1, 2], -1, 1, 1⟩
    (∀ j cd a, j ≠ 0 → C.edges[j]? = some cd → EndOf C.edges j (farEnd (0, 1) false) → angleBetween C (0, 1) cd false = .ok a → 1 / 10 ^ 10 ≤ |a - Real.pi|) ∧
    nextEdge C 0 false = .ok 2 := by
  intro C
  have hpi := Real.pi_pos
  have h3 := Real.two_le_pi
  have small : (1 : ℝ) / 10 ^ 14 < 1 / 2 := by norm_num
  have small' : (1 : ℝ) / 10 ^ 10 < 1 / 2 := by norm_num
  have hsq := Real.mul_self_sqrt (show (0 : ℝ) ≤ 2 by norm_num)
  have left : angleBetween C (0, 1) (1, 2) false = .ok (Real.pi + Real.pi / 4) := by
    rw [turn_between_edges C (c := 2) (rho := Real.sqrt 2) (alpha := Real.pi / 4) (by decide) (by decide) (by decide) (Or.inl rfl) (by positivity) (by linarith) (by linarith)]
    · rw [if_neg (by linarith)]
    · norm_num [vsub, col, C]
    · rw [Real.cos_pi_div_four]
      norm_num [vsub, col, C]
      linarith
    · rw [Real.sin_pi_div_four]
      norm_num [vsub, col, C]
      linarith
  have right : angleBetween C (0, 1) (1, 3) false = .ok (-(Real.pi + -(Real.pi / 4))) := by
    rw [turn_between_edges C (c := 3) (rho := Real.sqrt 2) (alpha := -(Real.pi / 4)) (by decide) (by decide) (by decide) (Or.inl rfl) (by positivity) (by linarith) (by linarith)]
    · rw [if_pos (by linarith)]
    · norm_num [vsub, col, C]
    · rw [Real.cos_neg, Real.cos_pi_div_four]
      norm_num [vsub, col, C]
      linarith
    · rw [Real.sin_neg, Real.sin_pi_div_four]
      norm_num [vsub, col, C]
      linarith
  constructor
  · intro j cd a hj hcd _ ha
    have hlt : j < 3 := (List.getElem?_eq_some_iff.mp hcd).1
    interval_cases j
    · exact absurd rfl hj
    · have : cd = (1, 2) := by simpa [C] using hcd.symm
      subst this
      rw [left] at ha
      cases ha
      rw [abs_of_pos (by linarith)]
      linarith
    · have : cd = (1, 3) := by simpa [C] using hcd.symm
      subst this
      rw [right] at ha
      cases ha
      rw [abs_of_neg (by linarith)]
      linarith
  · have hf : (nodeEdges [(0, 1), (1, 2), (1, 3)] 1).filter (fun i => i != 0) = [1, 2] := by decide
    have hk : keepLowest C 0 0 false = true := by norm_num [keepLowest, C]
    have hC : C.edges = [(0, 1), (1, 2), (1, 3)] := rfl
    unfold nextEdge
    simp only [hC, List.getElem?_cons_zero, bind, Except.bind, pure, Except.pure, Bool.false_eq_true, if_false, hf, List.mapM_cons, List.mapM_nil, List.getElem?_cons_succ,
      left, right, reduceCtorEq]
    have hc : col C.nodes 1 = ⟨0, 0, 0⟩ := rfl
    rw [hc, hk]
    have e3 : (if |Real.pi + Real.pi / 4 - Real.pi| < 1 / 10 ^ 10 ∧ allNegative [Real.pi + Real.pi / 4, -(Real.pi + -(Real.pi / 4))] = true then -Real.pi else Real.pi + Real.pi / 4) =
      Real.pi + Real.pi / 4 := if_neg (fun h => by
        have := h.1
        rw [abs_of_pos (by linarith)] at this
        linarith)
    unfold bestAngle
    simp only [e3, if_true]
    rw [if_pos (by simp only [decide_eq_true_eq]; linarith)]
    rfl

/-! ### C111: open contours -/

theorem contourLoop_followed (C : Computer) (front : Nat) : ∀ (fuel : Nat) (ret : Contour) (prev : Nat) (r : Bool) (e : Nat) (c : Contour),
    (∀ x ∈ ret, ∃ j, nextEdge C x.1 x.2 = .ok j) → contourLoop C front fuel ret prev r e = .ok c → ∀ x ∈ c, ∃ j, nextEdge C x.1 x.2 = .ok j := by
  intro fuel
  induction fuel with
  | zero =>
    intro ret prev r e c hret h
    simp only [contourLoop, Except.ok.injEq] at h
    subst h
    exact hret
  | succ fuel ih =>
    intro ret prev r e c hret h
    unfold contourLoop at h
    split at h
    · simp only [Except.ok.injEq] at h
      subst h
      exact hret
    · simp only [bind, Except.bind] at h
      split at h
      · simp at h
      · split at h
        · simp at h
        · split at h
          · simp at h
          · rename_i next hn
            refine ih _ _ _ _ _ ?_ h
            intro x hx
            rw [List.mem_append, List.mem_singleton] at hx
            rcases hx with hx | hx
            · exact hret x hx
            · subst hx
              exact ⟨next, hn⟩

/-- **C111 (open contours)** There is no dead end in a contour: each of its edges is followed by another edge, at its end if the walk kept its direction,
or else at its start (the whole contour has been flipped).  An open line of edges gives no contour. -/
theorem contour_has_no_dead_end (C : Computer) {e : Nat} {c : Contour} (h : contourFrom C e = .ok c) :
    (∀ x ∈ c, ∃ ab j, C.edges[x.1]? = some ab ∧ j ≠ x.1 ∧ EndOf C.edges j (farEnd ab x.2)) ∨
    (∀ x ∈ c, ∃ ab j, C.edges[x.1]? = some ab ∧ j ≠ x.1 ∧ EndOf C.edges j (farEnd ab !x.2)) := by
  have key : ∀ ret : Contour, (do
      let next ← nextEdge C e false
      contourLoop C e (C.edges.length - 1) [(e, false)] e false next) = .ok ret →
      ∀ x ∈ ret, ∃ ab j, C.edges[x.1]? = some ab ∧ j ≠ x.1 ∧ EndOf C.edges j (farEnd ab x.2) := by
    intro ret hw x hx
    simp only [bind, Except.bind] at hw
    split at hw
    · simp at hw
    · rename_i next hn
      obtain ⟨j, hj⟩ := contourLoop_followed C e _ _ _ _ _ _ (fun x hx => by
        rw [List.mem_singleton] at hx
        subst hx
        exact ⟨next, hn⟩) hw x hx
      obtain ⟨ab, h1, h2, h3⟩ := next_edge_connected C hj
      exact ⟨ab, j, h1, h3, h2⟩
  unfold contourFrom at h
  simp only at h
  split at h
  · split at h
    · simp only [Except.ok.injEq] at h
      subst h
      left; simp
    · simp at h
  · rename_i ret hw
    have hk := key ret hw
    simp only [bind, Except.bind, pure, Except.pure] at h
    split at h
    · simp at h
    · split at h
      · simp only [Except.ok.injEq] at h
        subst h
        exact Or.inl hk
      · simp only [Except.ok.injEq] at h
        subst h
        right
        intro x hx
        unfold flipContour at hx
        rw [List.mem_reverse, List.mem_map] at hx
        obtain ⟨y, hy, rfl⟩ := hx
        simpa using hk y hy

/-- An edge which is connected to no other one gives no facet. -/
theorem single_edge_gives_no_facet (nodes : List (Pt ℝ)) (E : List Edge) {i : Nat} (hi : i < E.length) : closingFacet nodes E [i] = .ok none := by
  have h0 : getAt E 0 = .ok (E[0]'(by omega)) := by
    unfold getAt; rw [List.getElem?_eq_getElem (by omega)]
  have h1 : getAt E i = .ok E[i] := by
    unfold getAt; rw [List.getElem?_eq_getElem hi]
  unfold closingFacet Computer.mk'
  simp [bind, Except.bind, pure, Except.pure, h0, h1, contour]

/-- When no edge is selected, all the edges are. -/
theorem group_all_edges (boost : Components) {E : List Edge} (hE : E ≠ []) :
    groupConnectedEdges boost E [] = groupConnectedEdges boost E (List.range E.length) := by
  unfold groupConnectedEdges
  have : List.range E.length ≠ [] := by simpa using hE
  simp [this]

/-! ### C113: closing facets which are already there -/

/-- `f` is found among the facets of a range: each of its vertices belongs to a facet which has the same normal. -/
theorem has_facet_iff (f : Facet ℝ) (range : List (Facet ℝ)) :
    hasFacet f range = true ↔ f.vertices ≠ [] ∧ ∀ v ∈ f.vertices, ∃ g ∈ range, norm3 (vsub f.normal g.normal) ≤ 1 / 10 ^ 8 ∧ v ∈ g.vertices := by
  unfold hasFacet
  by_cases h : f.vertices = []
  · simp [h]
  · rw [if_neg h]
    simp only [List.all_eq_true, List.any_eq_true]
    constructor
    · intro hh
      refine ⟨h, fun v hv => ?_⟩
      obtain ⟨g, hg, hgv⟩ := hh v hv
      refine ⟨g, hg, ?_⟩
      split at hgv
      · simp at hgv
      · rename_i hn
        exact ⟨not_lt.mp hn, by simpa using hgv⟩
    · rintro ⟨-, hh⟩ v hv
      obtain ⟨g, hg, h1, h2⟩ := hh v hv
      refine ⟨g, hg, ?_⟩
      rw [if_neg (not_lt.mpr h1)]
      simpa using h2

/-- A closing facet is not counted in the emerged volume when its vertices belong to emerged facets whose normal is the opposite of its own. -/
theorem emerged_facet_counted_once (f : Facet ℝ) (em : List (Facet ℝ)) :
    hasFacet (flipFacet f) em = true ↔
      f.vertices ≠ [] ∧ ∀ v ∈ f.vertices, ∃ g ∈ em, norm3 ⟨-f.normal.x - g.normal.x, -f.normal.y - g.normal.y, -f.normal.z - g.normal.z⟩ ≤ 1 / 10 ^ 8 ∧ v ∈ g.vertices := by
  rw [has_facet_iff]
  simp [flipFacet, vsub, vscale]

end Xdyn.Closing

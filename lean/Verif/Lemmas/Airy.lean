import Verif.Lemmas.Waves
import Mathlib.Analysis.Calculus.Deriv.Add
import Mathlib.Analysis.Calculus.Deriv.Mul
import Mathlib.Analysis.SpecialFunctions.ExpDeriv
import Mathlib.Analysis.SpecialFunctions.Trigonometric.DerivHyp

namespace Xdyn.Waves

open Spec

/-- A loop that adds a value at each turn. -/
theorem foldlM_add {M : Type} [AddCommMonoid M] {F : Nat → M} {step : M → Nat → Except Err M} :
    ∀ (n : Nat) (z0 : M), (∀ z i, i < n → step z i = .ok (z + F i)) → (List.range n).foldlM step z0 = .ok (z0 + ∑ i ∈ Finset.range n, F i)
  | 0, z0, _ => by simp [pure, Except.pure]
  | n + 1, z0, h => by
    rw [List.range_succ, List.foldlM_append, foldlM_add n z0 (fun z i hi => h z i (by omega))]
    simp only [bind, Except.bind, List.foldlM_cons, List.foldlM_nil, pure, Except.pure]
    rw [h _ n (by omega), Finset.sum_range_succ, add_assoc]

/-- Component `i` (the default value is never used). -/
noncomputable def compAt (f : Flat) (i : Nat) : Comp := f.comps.getD i ⟨0, 0, 0, 0, 0, 0⟩

theorem getUB_comp {f : Flat} {i : Nat} (h : i < f.comps.length) : getUB f.comps i = .ok (compAt f i) := by
  rw [getUB_of_lt h]; simp [compAt, List.getElem?_eq_getElem h]

theorem getUB_fn {l : List ℝ} {i : Nat} (h : i < l.length) : getUB l i = .ok (fn l i) := by
  rw [getUB_of_lt h, fn_of_lt h]

theorem compAt_mem {f : Flat} {i : Nat} (h : i < f.comps.length) : compAt f i ∈ f.comps := by
  simp [compAt, List.getElem?_eq_getElem h]

/-- The angle of component `i`. -/
noncomputable def angleAt (f : Flat) (x y t : ℝ) (i : Nat) : ℝ := angle (compAt f i) (fn f.phase i) x y t

theorem elevationAt_eq (f : Flat) (hp : f.comps.length ≤ f.phase.length) (x y t : ℝ) :
    elevationAt f x y t = .ok (∑ i ∈ Finset.range f.comps.length, -((compAt f i).a * Real.sin (angleAt f x y t i))) := by
  unfold elevationAt
  rw [foldlM_add (F := fun i => -((compAt f i).a * Real.sin (angleAt f x y t i))), zero_add]
  intro z i hi
  simp only [getUB_comp hi, getUB_fn (lt_of_lt_of_le hi hp), bind, Except.bind, pure, Except.pure, angleAt, sub_eq_add_neg]

theorem pressureAt_eq (f : Flat) (hp : f.comps.length ≤ f.phase.length) (rho g x y z eta t : ℝ) (hz : eta ≤ z) :
    pressureAt f rho g x y z eta t
      = .ok ((∑ i ∈ Finset.range f.comps.length, (compAt f i).a * f.pdyn (compAt f i).k z eta * Real.sin (angleAt f x y t i)) * (rho * g)) := by
  unfold pressureAt
  rw [if_neg (not_lt.mpr hz), foldlM_add (F := fun i => (compAt f i).a * f.pdyn (compAt f i).k z eta * Real.sin (angleAt f x y t i))]
  · simp only [bind, Except.bind, pure, Except.pure, zero_add]
  · intro z i hi
    simp only [getUB_comp hi, getUB_fn (lt_of_lt_of_le hi hp), bind, Except.bind, pure, Except.pure, angleAt]

/-- The sums computed by `orbital_velocity`. -/
noncomputable def sumU (f : Flat) (x y z t : ℝ) : ℝ :=
  ∑ i ∈ Finset.range f.comps.length, (compAt f i).a * (compAt f i).k / (compAt f i).omega * f.pdyn (compAt f i).k z 0 * Real.sin (angleAt f x y t i) * (compAt f i).cosPsi

noncomputable def sumV (f : Flat) (x y z t : ℝ) : ℝ :=
  ∑ i ∈ Finset.range f.comps.length, (compAt f i).a * (compAt f i).k / (compAt f i).omega * f.pdyn (compAt f i).k z 0 * Real.sin (angleAt f x y t i) * (compAt f i).sinPsi

noncomputable def sumW (f : Flat) (x y z t : ℝ) : ℝ :=
  ∑ i ∈ Finset.range f.comps.length, (compAt f i).a * (compAt f i).k / (compAt f i).omega * f.pdynSh (compAt f i).k z 0 * Real.cos (angleAt f x y t i)

theorem velocityAt_eq (f : Flat) (hp : f.comps.length ≤ f.phase.length) (g x y z t eta : ℝ) (hz : eta ≤ z) :
    velocityAt f g x y z t eta = .ok (sumU f x y z t * g, sumV f x y z t * g, sumW f x y z t * g) := by
  unfold velocityAt
  rw [if_neg (not_lt.mpr hz), foldlM_add (F := fun i =>
    ((compAt f i).a * (compAt f i).k / (compAt f i).omega * f.pdyn (compAt f i).k z 0 * Real.sin (angleAt f x y t i) * (compAt f i).cosPsi,
     (compAt f i).a * (compAt f i).k / (compAt f i).omega * f.pdyn (compAt f i).k z 0 * Real.sin (angleAt f x y t i) * (compAt f i).sinPsi,
     (compAt f i).a * (compAt f i).k / (compAt f i).omega * f.pdynSh (compAt f i).k z 0 * Real.cos (angleAt f x y t i)))]
  · simp only [bind, Except.bind, pure, Except.pure, zero_add, sumU, sumV, sumW, Prod.fst_sum, Prod.snd_sum]
  · intro z i hi
    simp only [getUB_comp hi, getUB_fn (lt_of_lt_of_le hi hp), bind, Except.bind, pure, Except.pure, angleAt]
    rfl

theorem angle_dx (c : Comp) (th x y t : ℝ) : HasDerivAt (fun x => angle c th x y t) (c.k * c.cosPsi) x := by
  unfold angle
  have h : HasDerivAt (fun x : ℝ => c.k * (x * c.cosPsi + y * c.sinPsi)) (c.k * (1 * c.cosPsi)) x :=
    (((hasDerivAt_id x).mul_const c.cosPsi).add_const (y * c.sinPsi)).const_mul c.k
  have := (h.const_add (-(c.omega * t))).add_const th
  exact this.congr_deriv (by ring)

theorem angle_dy (c : Comp) (th x y t : ℝ) : HasDerivAt (fun y => angle c th x y t) (c.k * c.sinPsi) y := by
  unfold angle
  have h : HasDerivAt (fun y : ℝ => c.k * (x * c.cosPsi + y * c.sinPsi)) (c.k * (1 * c.sinPsi)) y :=
    (((hasDerivAt_id y).mul_const c.sinPsi).const_add (x * c.cosPsi)).const_mul c.k
  have := (h.const_add (-(c.omega * t))).add_const th
  exact this.congr_deriv (by ring)

theorem angle_dt (c : Comp) (th x y t : ℝ) : HasDerivAt (fun t => angle c th x y t) (-c.omega) t := by
  unfold angle
  have h : HasDerivAt (fun t : ℝ => -(c.omega * t)) (-(c.omega * 1)) t := ((hasDerivAt_id t).const_mul c.omega).neg
  have := (h.add_const (c.k * (x * c.cosPsi + y * c.sinPsi))).add_const th
  exact this.congr_deriv (by ring)

end Xdyn.Waves

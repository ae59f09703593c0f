import Verif.Props.ConvergeControl
import Verif.Model.WaveForces
import Verif.Spec.InWaves

/-! Property C202: simulations of a body in waves converge to the exact motion. -/

namespace Xdyn.Sim

open Blocked Body Spec Solver Xdyn.Server

/-! ### The simulation is the method applied to the equations of motion -/

/-- A simulation of one body, none of whose states is blocked, whose forces sum up to a function `F` of the date, of the position, of
the velocities and of the attitude, has no memory, and the derivatives are given by the equations of motion. -/
theorem timed_memoryless (e : Multi.Entry ℝ) (he : Alone e) (ae : Nat → ℝ → ℝ → Bool) (ae1 : ℝ → Bool) (cmd : Commands ℝ)
    (F : ℝ → Vec3 ℝ → Vec3 ℝ → Vec3 ℝ → Quat ℝ → Vec3 ℝ × Vec3 ℝ)
    (hF : ∀ h p u w q t, Current h (vec13 p u w q) → (∀ n, (field h n).Tmax = 0) →
      Multi.sumOfForces cmd e.body e.forces e.controlled h (framesAt e.body.name p q) (vec13 p u w q) t = .ok (F t p u w q)) :
    Memoryless (oneBody e ae ae1) cmd (newtonAt e.body.Minv F) (fun x _ => x) (fun x => x.length = 13) (fun x => x.length = 13) := by
  refine ⟨fun x t hg => ⟨forceStates_free he.free x t, by simp [hg], hg⟩, fun x hg => ?_, ?_, fun x t hx => newton_length _ _ x t hx, ?_⟩
  · obtain ⟨y, c, hy, -⟩ := normalizeOne_spec ae1 x 0 (by omega)
    exact ⟨y, by simp [oneBody, normalizeQuaternions, hy, bind, Except.bind, pure, Except.pure]⟩
  · intro h x t hg hc h0
    obtain ⟨p, u, w, q, rfl⟩ : ∃ p u w q, x = vec13 p u w q := by
      match x, hg with
      | [a, b, c, d, e, f, g, h, i, j, k, l, m], _ =>
        exact ⟨![a, b, c], ![d, e, f], ![g, h, i], ⟨j, k, l, m⟩, rfl⟩
    refine ⟨F t p u w q, ?_⟩
    refine (eval_free e he cmd h p u w q t _ (hF h p u w q t hc h0)).trans ?_
    have hp : (![p 0, p 1, p 2] : Vec3 ℝ) = p := by funext i; fin_cases i <;> rfl
    have hu : (![u 0, u 1, u 2] : Vec3 ℝ) = u := by funext i; fin_cases i <;> rfl
    have hw : (![w 0, w 1, w 2] : Vec3 ℝ) = w := by funext i; fin_cases i <;> rfl
    have e1 : Multi.toVector (F t p u w q) = ![(F t p u w q).1 0, (F t p u w q).1 1, (F t p u w q).1 2, (F t p u w q).2 0, (F t p u w q).2 1, (F t p u w q).2 2] := by
      funext i; fin_cases i <;> rfl
    congr 2
    show _ = newton e.body.Minv (F t) (vec13 p u w q) t
    simp only [newton, vec13]
    rw [hp, hu, hw, ← e1]
    simp only [List.cons.injEq, Matrix.cons_val_zero, Matrix.cons_val_one, Matrix.cons_val, true_and, Quat.mul]
    refine ⟨?_, ?_, ?_, ?_, trivial⟩ <;> ring
  · intro dt x a ks hl hk
    rw [← combine_move]
    exact combine_length dt a ks x hl hk

/-- Value of the force model `diffraction`. -/
theorem diffraction_value (b : Multi.MBody ℝ) (hb : b.name ≠ "NED") (L : WaveLoad) (hs : Sea.GoodSea L.sea) {d : Sea.Diffraction} {hp : List ℝ}
    (hd : Sea.makeDiffraction ⟨L.H0 0, L.H0 1, L.H0 2⟩ L.mirror L.modules L.phases hp (some L.sea) = .ok d)
    {h : States (History ℝ)} {p u w : Vec3 ℝ} {q : Quat ℝ} (t : ℝ) (hc : Current h (vec13 p u w q)) (h0 : ∀ n, (field h n).Tmax = 0) :
    Multi.valueOf b h (framesAt b.name p q) t (diffractionModel b d L.sea L.psiOf) = .ok (L.wrench b.G t p q) := by
  obtain ⟨s', hs', rfl, -⟩ := (Sea.makeDiffraction_iff _ _ _ _ _ _ d).mp hd
  cases hs'
  obtain ⟨-, -, -, -, -, e6⟩ := positions_read hc h0
  have hg : Multi.Kin.get (framesAt b.name p q) "NED" b.name = .ok ⟨![p 0, p 1, p 2], q.matrix⟩ := by
    rw [Multi.Kin.get, frame_of_body _ hb]; simp [Multi.frameOf]
  have hf : seaFrames (framesAt b.name p q) b.name = some ⟨⟨p 0, p 1, p 2⟩, q.matrix⟩ := by
    rw [seaFrames, hg]; rfl
  have hv := Sea.diffractionForce_ok ⟨L.H0 0, L.H0 1, L.H0 2⟩ L.mirror L.modules L.phases L.sea hs (seaFrames (framesAt b.name p q)) b.name _ hf ⟨b.G 0, b.G 1, b.G 2⟩ t (L.psiOf q.matrix)
  simp only [Multi.valueOf, diffractionModel, e6, hv, Multi.contribution, bind, Except.bind, pure, Except.pure, ne_eq, not_true_eq_false, if_false]
  have hx : ((p + q.matrix.mulVec L.H0) 0) = (Hull.Transform.apply ⟨⟨p 0, p 1, p 2⟩, q.matrix⟩ ⟨L.H0 0, L.H0 1, L.H0 2⟩).x := by
    simp [Hull.Transform.apply, Hull.rotate, Hull.vadd, Matrix.mulVec, dotProduct, Fin.sum_univ_three]; ring
  have hy : ((p + q.matrix.mulVec L.H0) 1) = (Hull.Transform.apply ⟨⟨p 0, p 1, p 2⟩, q.matrix⟩ ⟨L.H0 0, L.H0 1, L.H0 2⟩).y := by
    simp [Hull.Transform.apply, Hull.rotate, Hull.vadd, Matrix.mulVec, dotProduct, Fin.sum_univ_three]; ring
  simp only [WaveLoad.wrench, WaveLoad.response, hx, hy]
  generalize Sea.seaResponse L.modules L.phases L.mirror L.sea _ _ t (L.psiOf q.matrix) = R
  simp only [Hdb.diffractionWrench, Hdb.aquaplusWrench]
  congr 2
  · funext i; fin_cases i <;> simp
  · funext i; fin_cases i <;> simp [cross, Hdb.cross, Sea.vec3] <;> ring

/-- Sum of the forces. -/
theorem waves_sum (e : Multi.Entry ℝ) (he : Alone e) (l : List Push) (L : WaveLoad) (hs : Sea.GoodSea L.sea) {d : Sea.Diffraction} {hp : List ℝ}
    (hd : Sea.makeDiffraction ⟨L.H0 0, L.H0 1, L.H0 2⟩ L.mirror L.modules L.phases hp (some L.sea) = .ok d)
    (hl : e.forces = l.map (Push.model e.body) ++ [diffractionModel e.body d L.sea L.psiOf]) (cs : List Control)
    (hc : e.controlled = cs.map (Control.model e.body)) (cmd : Commands ℝ) (ho : ∀ c ∈ cs, c.Commanded cmd) (hb : ∀ f ∈ l, ¬ f.InBody)
    {h : States (History ℝ)} {p u w : Vec3 ℝ} {q : Quat ℝ} (t : ℝ) (hcur : Current h (vec13 p u w q)) (h0 : ∀ n, (field h n).Tmax = 0) :
    Multi.sumOfForces cmd e.body e.forces e.controlled h (framesAt e.body.name p q) (vec13 p u w q) t = .ok (inWaves e.body l cs L t p u w q) := by
  have h1 := total_sum ⟨e.body, l.map (Push.model e.body), e.controlled⟩ ⟨he.idx, he.name, he.free⟩ l rfl cs hc cmd ho t hcur h0 (Or.inr hb)
  rw [Multi.sumOfForces_iff] at h1 ⊢
  obtain ⟨v, ws, cs', a1, a2, a3, a4⟩ := h1
  refine ⟨v, ws ++ [L.wrench e.body.G t p q], cs', a1, ?_, a3, ?_⟩
  · rw [hl, List.mapM_append, a2]
    simp only [List.mapM_cons, List.mapM_nil, diffraction_value e.body he.name L hs hd t hcur h0, bind, Except.bind, pure, Except.pure]
  · rw [inWaves, a4, List.sum_append, List.sum_singleton]
    abel

/-! ### The date as a state -/

/-- The equations where the date is the last state. -/
def dated (n : Nat) (f : List ℝ → ℝ → List ℝ) (z : List ℝ) (_ : ℝ) : List ℝ := f (z.take n) (z.getD n 0) ++ [1]

theorem move_dated {n : Nat} (dt : ℝ) : ∀ (a : List ℝ) (ks : List (List ℝ)) (x : List ℝ) (s : ℝ), a.length = ks.length → x.length = n → (∀ k ∈ ks, k.length = n) →
    RK.move dt (x ++ [s]) a (ks.map (· ++ [1])) = RK.move dt x a ks ++ [s + dt * a.sum]
  | [], _, x, s, _, _, _ => by simp [RK.move]
  | b :: a, [], _, _, h, _, _ => by simp at h
  | b :: a, k :: ks, x, s, h, hx, hk => by
    have hk0 : k.length = n := hk k (by simp)
    have e1 : RK.move dt (x ++ [s]) (b :: a) ((k :: ks).map (· ++ [1])) =
        RK.move dt (List.zipWith (fun yi ki => yi + dt * b * ki) (x ++ [s]) (k ++ [1])) a (ks.map (· ++ [1])) := rfl
    have e2 : RK.move dt x (b :: a) (k :: ks) = RK.move dt (List.zipWith (fun yi ki => yi + dt * b * ki) x k) a ks := rfl
    rw [e1, e2, List.zipWith_append (by rw [hx, hk0]), List.zipWith_cons_cons, List.zipWith_nil_right]
    rw [move_dated dt a ks _ _ (by simpa using h) (by simp [hx, hk0]) (fun k' h' => hk k' (by simp [h']))]
    rw [List.sum_cons]
    congr 2
    ring

theorem stages_dated {n : Nat} {f : List ℝ → ℝ → List ℝ} (hf : ∀ x t, x.length = n → (f x t).length = n) (dt : ℝ) (x : List ℝ) (hx : x.length = n) (t t' : ℝ) :
    ∀ (rows : List (ℝ × List ℝ)) (ks : List (List ℝ)), (∀ k ∈ ks, k.length = n) → TimedRows ks.length rows →
      RK.rkStages (dated n f) (x ++ [t]) t' dt rows (ks.map (· ++ [1])) = (RK.rkStages f x t dt rows ks).map (· ++ [1]) ∧ (∀ k ∈ RK.rkStages f x t dt rows ks, k.length = n) ∧
        (RK.rkStages f x t dt rows ks).length = ks.length + rows.length
  | [], ks, hk, _ => ⟨rfl, hk, rfl⟩
  | (c, a) :: rows, ks, hk, ht => by
    obtain ⟨h1, h2, h3⟩ := ht
    have hm := (move_spec dt a ks x hx hk).1
    have e : dated n f (RK.move dt (x ++ [t]) a (ks.map (· ++ [1]))) (t' + c * dt) = f (RK.move dt x a ks) (t + c * dt) ++ [1] := by
      rw [move_dated dt a ks x t h1 hx hk, dated, List.take_left' hm, h2, mul_comm dt c]
      congr 2
      rw [List.getD_append_right _ _ _ _ (by omega), hm, Nat.sub_self]
      rfl
    have hk' : ∀ k ∈ ks ++ [f (RK.move dt x a ks) (t + c * dt)], k.length = n := by
      intro k h
      rcases List.mem_append.mp h with h | h
      · exact hk k h
      · rw [List.mem_singleton.mp h]; exact hf _ _ hm
    have ih := stages_dated hf dt x hx t t' rows (ks ++ [f (RK.move dt x a ks) (t + c * dt)]) hk' (by simpa using h3)
    rw [RK.rkStages, RK.rkStages, e]
    rw [List.map_append, List.map_cons, List.map_nil] at ih
    refine ⟨ih.1, ih.2.1, ?_⟩
    rw [ih.2.2]
    simp only [List.length_append, List.length_cons, List.length_nil]
    omega

/-- The method applied to the equations where the date is a state gives the same states, and the dates. -/
theorem run_dated {n : Nat} {f : List ℝ → ℝ → List ℝ} (hf : ∀ x t, x.length = n → (f x t).length = n) (T : Tableau ℝ) (hw : WellWeighted T) (hT : TimedRows 0 T.stages)
    (x : List ℝ) (hx : x.length = n) (t0 dt : ℝ) : ∀ N : Nat, (RK.rkRun f (fun x _ => x) T x t0 dt N).length = n ∧
      RK.rkRun (dated n f) (fun x _ => x) T (x ++ [t0]) t0 dt N = RK.rkRun f (fun x _ => x) T x t0 dt N ++ [t0 + N * dt]
  | 0 => ⟨hx, by simp [RK.rkRun]⟩
  | N + 1 => by
    obtain ⟨h1, h2⟩ := run_dated hf T hw hT x hx t0 dt N
    obtain ⟨h3, h4, h5⟩ := stages_dated hf dt _ h1 (t0 + N * dt) (t0 + N * dt) T.stages [] (by simp) hT
    rw [List.map_nil] at h3
    refine ⟨(move_spec dt _ _ _ h1 h4).1, ?_⟩
    rw [RK.rkRun, RK.rkRun, h2, RK.rkStep, RK.rkStep, h3, move_dated dt _ _ _ _ (by rw [hw.length, h5]; simp) h1 h4, hw.sum]
    congr 2
    push_cast
    ring

/-! ### Convergence -/

/-- Equations that are those of a tame system in the neighbourhood of the exact motion. -/
theorem tube_converges {n : Nat} {f g : List ℝ → ℝ → List ℝ} {B L η : ℝ} (hg : Tame n g B L) (hη : 0 < η) (T : Tableau ℝ) (hT : WellWeighted T) {t0 D : ℝ} (hD : 0 ≤ D) (y : ℝ → List ℝ)
    (hy : ∀ t ∈ Set.Icc t0 (t0 + D), (y t).length = n ∧ ∀ i, HasDerivAt (fun t => (y t).getD i 0) ((f (y t) t).getD i 0) t)
    (hfg : ∀ t ∈ Set.Icc t0 (t0 + D), ∀ x, x.length = n → Near η x (y t) → ∀ s, g x s = f x s) :
    ∃ C δ, 0 ≤ C ∧ 0 < δ ∧ ∀ dt, 0 ≤ dt → dt ≤ δ → ∀ N : Nat, (N : ℝ) * dt ≤ D →
      Near (C * dt) (RK.rkRun f (fun x _ => x) T (y t0) t0 dt N) (y (t0 + N * dt)) := by
  have hy' : ∀ t ∈ Set.Icc t0 (t0 + D), (y t).length = n ∧ ∀ i, HasDerivAt (fun t => (y t).getD i 0) ((g (y t) t).getD i 0) t := by
    intro t h
    rw [hfg t h (y t) (hy t h).1 ((near_refl (y t)).mono hη.le)]
    exact hy t h
  have hB := hg.B_nonneg
  have hL := hg.L_nonneg
  have hS := size_nonneg T.weights
  have hA := (rowSize_spec T).1
  set K := (size T.weights * rowSize T + 1) * L * B with hK
  have hK0 : 0 ≤ K := by positivity
  set C := D * K * Real.exp (L * D) with hCdef
  have hC : 0 ≤ C := by positivity
  set δ := min (η / 2 / (C + 1)) (η / 2 / (rowSize T * B + 1)) with hδ
  have hδ0 : 0 < δ := lt_min (by positivity) (by positivity)
  have main : ∀ dt, 0 ≤ dt → ∀ N : Nat, (N : ℝ) * dt ≤ D →
      (RK.rkRun g (fun x _ => x) T (y t0) t0 dt N).length = n ∧ Near (C * dt) (RK.rkRun g (fun x _ => x) T (y t0) t0 dt N) (y (t0 + N * dt)) := by
    intro dt hdt N hN
    obtain ⟨h1, h2⟩ := tame_converges hg T hT y hy' hdt N hN
    refine ⟨h1, h2.mono ?_⟩
    have he : (1 + L * dt) ^ N ≤ Real.exp (L * D) := by
      refine (pow_le_pow_left₀ (by positivity) (show 1 + L * dt ≤ Real.exp (L * dt) by linarith [Real.add_one_le_exp (L * dt)]) N).trans ?_
      rw [← Real.exp_nat_mul]
      refine Real.exp_le_exp.mpr ?_
      nlinarith [mul_le_mul_of_nonneg_left hN hL]
    have h3 : (N : ℝ) * dt * (K * dt) ≤ D * (K * dt) := mul_le_mul_of_nonneg_right hN (by positivity)
    have h4 := mul_le_mul h3 he (by positivity) (by positivity)
    refine h4.trans (le_of_eq ?_)
    rw [hCdef]; ring
  refine ⟨C, δ, hC, hδ0, fun dt hdt hd => ?_⟩
  have hd1 : C * dt ≤ η / 2 := by
    have : dt ≤ η / 2 / (C + 1) := hd.trans (min_le_left _ _)
    rw [le_div_iff₀ (by positivity)] at this
    nlinarith
  have hd2 : dt * rowSize T * B ≤ η / 2 := by
    have : dt ≤ η / 2 / (rowSize T * B + 1) := hd.trans (min_le_right _ _)
    rw [le_div_iff₀ (by positivity)] at this
    nlinarith
  have same : ∀ N : Nat, (N : ℝ) * dt ≤ D → RK.rkRun g (fun x _ => x) T (y t0) t0 dt N = RK.rkRun f (fun x _ => x) T (y t0) t0 dt N := by
    intro N
    induction N with
    | zero => intro _; rfl
    | succ N ih =>
      intro hN
      push_cast at hN
      have hNdt : 0 ≤ (N : ℝ) * dt := mul_nonneg (Nat.cast_nonneg N) hdt
      have hN' : (N : ℝ) * dt ≤ D := by linarith
      obtain ⟨h1, h2⟩ := main dt hdt N hN'
      have hmem : t0 + (N : ℝ) * dt ∈ Set.Icc t0 (t0 + D) := ⟨by linarith, by linarith⟩
      rw [RK.rkRun, RK.rkRun, ← ih hN', RK.rkStep, RK.rkStep]
      rw [stages_tube hg hdt _ (y (t0 + N * dt)) h1 h2 (A := rowSize T) (by linarith) (hfg _ hmem) (t0 + N * dt) T.stages (rowSize_spec T).2 [] (by simp)]
  intro N hN
  rw [← same N hN]
  exact (main dt hdt N hN).2

theorem take_parts (z : List ℝ) (hz : z.length = 14) : (z.take 13).length = 13 ∧ positionOf (z.take 13) = positionOf z ∧ velocityOf (z.take 13) = velocityOf z ∧
    turnOf (z.take 13) = turnOf z ∧ attitudeOf (z.take 13) = attitudeOf z := by
  match z, hz with
  | [a, b, c, d, e, f, g, h, i, j, k, l, m, n], _ => exact ⟨rfl, rfl, rfl, rfl, rfl⟩

/-- Forces that are Lipschitz functions of the states and of the date make regular equations. -/
theorem dated_regular (Minv : Mat6 ℝ) (F : ℝ → Vec3 ℝ → Vec3 ℝ → Vec3 ℝ → Quat ℝ → Vec3 ℝ × Vec3 ℝ)
    (h1 : LipVec fun s => (F (s.getD 13 0) (positionOf s) (velocityOf s) (turnOf s) (attitudeOf s)).1)
    (h2 : LipVec fun s => (F (s.getD 13 0) (positionOf s) (velocityOf s) (turnOf s) (attitudeOf s)).2) :
    Regular 14 (dated 13 (newtonAt Minv F)) := by
  have hacc : LipVec (fun s => acceleration Minv (F (s.getD 13 0)) s) := by
    unfold acceleration
    refine LipVec.mulVec (M := fun _ => Minv) (fun i j => LipBox.const _) ?_
    intro i
    fin_cases i
    exacts [h1 0, h1 1, h1 2, h2 0, h2 1, h2 2]
  have hV : LipVec (fun s => (attitudeOf s).matrix.mulVec (velocityOf s)) := LipVec.mulVec matrix_lip velocity_lip
  have hw : LipBox (fun x => (attitudeOf x).w) := LipBox.coordinate 9
  have hx : LipBox (fun x => (attitudeOf x).x) := LipBox.coordinate 10
  have hy : LipBox (fun x => (attitudeOf x).y) := LipBox.coordinate 11
  have hz : LipBox (fun x => (attitudeOf x).z) := LipBox.coordinate 12
  have t0 := turn_lip 0
  have t1 := turn_lip 1
  have t2 := turn_lip 2
  have half : ∀ {g : List ℝ → ℝ}, LipBox g → LipBox (fun x => g x / 2) := fun h => by
    simpa [div_eq_mul_inv] using h.mul (LipBox.const (2⁻¹))
  refine ⟨fun x t hx => ?_, fun i => ?_⟩
  · rw [dated, List.length_append, newtonAt, newton_length _ _ _ _ (take_parts x hx).1]
    rfl
  refine ⟨fun s => (vec13 ((attitudeOf s).matrix.mulVec (velocityOf s))
      (fun i => acceleration Minv (F (s.getD 13 0)) s (i.castLE (by omega))) (fun i => acceleration Minv (F (s.getD 13 0)) s (i.natAdd 3))
      ⟨(-(attitudeOf s).x * turnOf s 0 - (attitudeOf s).y * turnOf s 1 - (attitudeOf s).z * turnOf s 2) / 2,
       ((attitudeOf s).w * turnOf s 0 + (attitudeOf s).y * turnOf s 2 - (attitudeOf s).z * turnOf s 1) / 2,
       ((attitudeOf s).w * turnOf s 1 - (attitudeOf s).x * turnOf s 2 + (attitudeOf s).z * turnOf s 0) / 2,
       ((attitudeOf s).w * turnOf s 2 + (attitudeOf s).x * turnOf s 1 - (attitudeOf s).y * turnOf s 0) / 2⟩ ++ [1]).getD i 0, ?_, fun x t hx => ?_⟩
  · match i with
    | 0 => exact hV 0
    | 1 => exact hV 1
    | 2 => exact hV 2
    | 3 => exact hacc 0
    | 4 => exact hacc 1
    | 5 => exact hacc 2
    | 6 => exact hacc 3
    | 7 => exact hacc 4
    | 8 => exact hacc 5
    | 9 => exact half (((hx.neg.mul t0).sub (hy.mul t1)).sub (hz.mul t2))
    | 10 => exact half (((hw.mul t0).add (hy.mul t2)).sub (hz.mul t1))
    | 11 => exact half (((hw.mul t1).sub (hx.mul t2)).add (hz.mul t0))
    | 12 => exact half (((hw.mul t2).add (hx.mul t1)).sub (hy.mul t0))
    | 13 => exact LipBox.const 1
    | i + 14 => exact LipBox.const 0
  · obtain ⟨e0, e1, e2, e3, e4⟩ := take_parts x hx
    rw [dated, newtonAt, newton_parts _ _ _ e0]
    simp only [acceleration, e1, e2, e3, e4]

/-! ### The forces -/

theorem sin_lipschitz : LipschitzOnIntervals Real.sin := fun _ => ⟨1, fun a b _ _ => by
  rw [one_mul]
  exact Real.abs_sin_sub_sin_le a b⟩

theorem LipBox.list_sum {α : Type} (l : List α) (g : α → List ℝ → ℝ) (h : ∀ a ∈ l, LipBox (g a)) : LipBox (fun x => (l.map (fun a => g a x)).sum) := by
  induction l with
  | nil => exact LipBox.const 0
  | cons a l ih =>
    simp only [List.map_cons, List.sum_cons]
    exact (h a (by simp)).add (ih fun b hb => h b (by simp [hb]))

/-- The same, with a heading that is a Lipschitz function. -/
noncomputable def WaveLoad.smoothed (c : ℝ) (L : WaveLoad) : WaveLoad := { L with psiOf := smoothHeading c }

theorem response_lip (L : WaveLoad) (hL : L.Regular) {c : ℝ} (hc : 0 < c) (i : Fin 6) : LipBox (fun s => (L.smoothed c).response (s.getD 13 0) (positionOf s) (attitudeOf s) i) := by
  have hP : LipVec (fun s => positionOf s + (attitudeOf s).matrix.mulVec L.H0) := position_lip.add (LipVec.mulVec matrix_lip (LipVec.const L.H0))
  have hh := heading_lip hc
  have ht : LipBox (fun s => s.getD 13 0) := LipBox.coordinate 13
  simp only [WaveLoad.response, WaveLoad.smoothed, Sea.seaResponse]
  refine LipBox.list_sum _ _ fun f hf => LipBox.list_sum _ _ fun q hq => ?_
  have hq1 : q.1 ∈ f.comps := (List.of_mem_zip (a := q.1) (b := q.2) hq).1
  obtain ⟨h1, h2⟩ := hL f hf q.1 hq1 i
  have hb : LipBox (fun s => smoothHeading c (attitudeOf s).matrix - q.1.psi) := hh.sub (LipBox.const _)
  have hM := hb.comp h1
  have hPh := hb.comp h2
  have hx := hP 0
  have hy := hP 1
  unfold Sea.waveResponse
  refine LipBox.neg ((hM.mul (LipBox.const _)).mul (LipBox.comp (r := Real.sin) ?_ sin_lipschitz))
  refine LipBox.sub (((((LipBox.const q.1.omega).mul ht).neg).add ((LipBox.const q.1.k).mul ((hx.mul (LipBox.const q.1.cosPsi)).add (hy.mul (LipBox.const q.1.sinPsi))))).add (LipBox.const q.2)) hPh

theorem load_lip (L : WaveLoad) (hL : L.Regular) (G : Vec3 ℝ) {c : ℝ} (hc : 0 < c) :
    (LipVec fun s => ((L.smoothed c).wrench G (s.getD 13 0) (positionOf s) (attitudeOf s)).1) ∧ (LipVec fun s => ((L.smoothed c).wrench G (s.getD 13 0) (positionOf s) (attitudeOf s)).2) := by
  have hR := response_lip L hL hc
  have h1 := LipVec.three (hR 0).neg (hR 1) (hR 2)
  have h2 := LipVec.three (hR 3).neg (hR 4) (hR 5)
  exact ⟨h1, h2.add ((LipVec.const (L.H0 - G)).cross h1)⟩

theorem waves_regular (b : Multi.MBody ℝ) {Ms : Mat6 ℝ} (hcor : b.coriolis = inertialForces Ms) (l : List Push) (hl : ∀ f ∈ l, f.Regular) (cs : List Control) (W : WaveLoad) (hW : W.Regular) {c : ℝ} (hc : 0 < c) :
    Regular 14 (dated 13 (newtonAt b.Minv (inWaves b l (cs.map (Control.smoothed c)) (W.smoothed c)))) := by
  have hL : LipVec (fun s => linearMomentum Ms (velocityOf s) (turnOf s)) := fun i => LipBox.sum Finset.univ _ fun j => (LipBox.const _).mul (velocity6_lip j)
  have hA : LipVec (fun s => angularMomentum Ms (velocityOf s) (turnOf s)) := fun i => LipBox.sum Finset.univ _ fun j => (LipBox.const _).mul (velocity6_lip j)
  have hw := wrenches_lip b.G l hl
  have hk := controls_lip b.G hc cs
  have hd := load_lip W hW b.G hc
  refine dated_regular _ _ ?_ ?_
  · simp only [inWaves, total, resultant, hcor, inertialForces, Prod.fst_add]
    exact (((hL.cross turn_lip).add hw.1).add hk.1).add hd.1
  · simp only [inWaves, total, resultant, hcor, inertialForces, Prod.snd_add]
    exact ((((hL.cross velocity_lip).add (hA.cross turn_lip)).add hw.2).add hk.2).add hd.2

theorem waves_smoothed (b : Multi.MBody ℝ) (l : List Push) (cs : List Control) (hcs : ∀ k ∈ cs, k.ReadsHeading) (W : WaveLoad) (hW : HeadingOf W.psiOf) {c : ℝ} (hc : 0 < c) (x : List ℝ) (hx : x.length = 13)
    (h : c ≤ (attitudeOf x).matrix 0 0) (t : ℝ) : newtonAt b.Minv (inWaves b l (cs.map (Control.smoothed c)) (W.smoothed c)) x t = newtonAt b.Minv (inWaves b l cs W) x t := by
  have hone : ∀ k ∈ cs, Control.wrench b.G (positionOf x) (velocityOf x) (turnOf x) (attitudeOf x) (k.smoothed c) = Control.wrench b.G (positionOf x) (velocityOf x) (turnOf x) (attitudeOf x) k := by
    intro k hk
    have hr := hcs k hk
    cases k with
    | stationKeeping I psiOf k x' y psi =>
      have : psiOf (attitudeOf x).matrix = smoothHeading c (attitudeOf x).matrix := by rw [hr _ (lt_of_lt_of_le hc h), smoothHeading, max_eq_right h]
      simp only [Control.smoothed, Control.wrench, this]
    | heading I psiOf n ksi Tp psi =>
      have : psiOf (attitudeOf x).matrix = smoothHeading c (attitudeOf x).matrix := by rw [hr _ (lt_of_lt_of_le hc h), smoothHeading, max_eq_right h]
      simp only [Control.smoothed, Control.wrench, this]
  have hload : (W.smoothed c).wrench b.G t (positionOf x) (attitudeOf x) = W.wrench b.G t (positionOf x) (attitudeOf x) := by
    have : W.psiOf (attitudeOf x).matrix = smoothHeading c (attitudeOf x).matrix := by rw [hW _ (lt_of_lt_of_le hc h), smoothHeading, max_eq_right h]
    simp only [WaveLoad.wrench, WaveLoad.response, WaveLoad.smoothed, this]
  have htot : inWaves b l (cs.map (Control.smoothed c)) (W.smoothed c) t (positionOf x) (velocityOf x) (turnOf x) (attitudeOf x) = inWaves b l cs W t (positionOf x) (velocityOf x) (turnOf x) (attitudeOf x) := by
    simp only [inWaves, total, List.map_map, hload]
    congr 3
    exact List.map_congr_left (fun k hk => hone k hk)
  rw [newtonAt, newtonAt, newton_parts _ _ _ hx, newton_parts _ _ _ hx]
  simp only [acceleration, htot]

/-- The quaternion keeps its norm. -/
theorem timed_unit {Minv : Mat6 ℝ} {F : ℝ → Vec3 ℝ → Vec3 ℝ → Vec3 ℝ → Quat ℝ → Vec3 ℝ × Vec3 ℝ} {y : ℝ → List ℝ} (hy : IsMotion (newtonAt Minv F) y) {t0 : ℝ} (h0 : Unit4 (attitudeOf (y t0))) (t : ℝ) :
    Unit4 (attitudeOf (y t)) := by
  have hd : ∀ t, HasDerivAt (fun t => (attitudeOf (y t)).w ^ 2 + (attitudeOf (y t)).x ^ 2 + (attitudeOf (y t)).y ^ 2 + (attitudeOf (y t)).z ^ 2) 0 t := by
    intro t
    obtain ⟨hl, hd⟩ := hy t
    simp only [newtonAt] at hd
    rw [newton_parts _ _ _ hl] at hd
    refine ((((hd 9).pow 2).add ((hd 10).pow 2)).add ((hd 11).pow 2)).add ((hd 12).pow 2) |>.congr_deriv ?_
    simp [vec13, attitudeOf]; ring
  have := is_const_of_deriv_eq_zero (fun t => (hd t).differentiableAt) (fun t => (hd t).deriv) t t0
  unfold Unit4 at h0 ⊢
  exact this.trans h0

theorem dated_getD (x : List ℝ) (hx : x.length = 13) (s : ℝ) (i : Nat) : (x ++ [s]).getD i 0 = if i < 13 then x.getD i 0 else if i = 13 then s else 0 := by
  match x, hx with
  | [a, b, c, d, e, f, g, h, i', j, k, l, m], _ =>
    match i with
    | 0 | 1 | 2 | 3 | 4 | 5 | 6 | 7 | 8 | 9 | 10 | 11 | 12 | 13 => rfl
    | i + 14 => simp

/-- The equations of motion in waves: the steps of the method lead to states that are close to those of the exact motion. -/
theorem waves_run_converges (b : Multi.MBody ℝ) {Ms : Mat6 ℝ} (hcor : b.coriolis = inertialForces Ms) (l : List Push) (hl : ∀ f ∈ l, f.Regular) (cs : List Control) (hcs : ∀ k ∈ cs, k.ReadsHeading)
    (W : WaveLoad) (hW : W.Regular) (hWh : HeadingOf W.psiOf)
    (T : Tableau ℝ) (hT : WellWeighted T) (hrows : TimedRows 0 T.stages) {t0 D : ℝ} (hD : 0 ≤ D) (y : ℝ → List ℝ) (hy : IsMotion (newtonAt b.Minv (inWaves b l cs W)) y)
    (hahead : ∀ t ∈ Set.Icc t0 (t0 + D), 0 < (attitudeOf (y t)).matrix 0 0) :
    ∃ C δ, 0 ≤ C ∧ 0 < δ ∧ ∀ dt, 0 ≤ dt → dt ≤ δ → ∀ N : Nat, (N : ℝ) * dt ≤ D →
      (RK.rkRun (newtonAt b.Minv (inWaves b l cs W)) (fun x _ => x) T (y t0) t0 dt N).length = 13 ∧
      Near (C * dt) (RK.rkRun (newtonAt b.Minv (inWaves b l cs W)) (fun x _ => x) T (y t0) t0 dt N) (y (t0 + N * dt)) := by
  set f := newtonAt b.Minv (inWaves b l cs W) with hf
  have hflen : ∀ x t, x.length = 13 → (f x t).length = 13 := fun x t hx => newton_length _ _ x t hx
  have htake : ∀ t, (y t ++ [t]).take 13 = y t := fun t => List.take_left' (hy t).1
  have hdate : ∀ t, (y t ++ [t]).getD 13 0 = t := fun t => by rw [dated_getD _ (hy t).1]; simp
  have hyI : ∀ t ∈ Set.Icc t0 (t0 + D), (y t ++ [t]).length = 14 ∧ ∀ i, HasDerivAt (fun t => (y t ++ [t]).getD i 0) ((dated 13 f (y t ++ [t]) t).getD i 0) t := by
    intro t _
    refine ⟨by simp [(hy t).1], fun i => ?_⟩
    rw [dated, htake, hdate, dated_getD _ (hflen _ _ (hy t).1)]
    simp only [fun t => dated_getD (y t) (hy t).1 t i]
    split
    · exact (hy t).2 i
    · split
      · exact hasDerivAt_id t
      · exact hasDerivAt_const t 0
  obtain ⟨r, hr, hin⟩ := motion_bounded (fun t => y t ++ [t]) hyI
  obtain ⟨B0, L0, hB0, hL0, H0⟩ := matrix_lip 0 0 (r + 1)
  have hatt : ∀ t, attitudeOf (y t ++ [t]) = attitudeOf (y t) := fun t => by
    rw [← (take_parts (y t ++ [t]) (by simp [(hy t).1])).2.2.2.2, htake]
  -- the least value of the cosine
  have hcont : ContinuousOn (fun t => (attitudeOf (y t)).matrix 0 0) (Set.Icc t0 (t0 + D)) := by
    intro t ht
    have hc : ∀ i, ContinuousAt (fun t => (y t).getD i 0) t := fun i => ((hy t).2 i).continuousAt
    have e : (fun t => (attitudeOf (y t)).matrix 0 0) = fun t => 1 - (2 * (y t).getD 11 0 * (y t).getD 11 0 + 2 * (y t).getD 12 0 * (y t).getD 12 0) := by
      funext t
      simp [Quat.matrix, attitudeOf]
    rw [e]
    exact (continuousAt_const.sub (((continuousAt_const.mul (hc 11)).mul (hc 11)).add ((continuousAt_const.mul (hc 12)).mul (hc 12)))).continuousWithinAt
  obtain ⟨tm, htm, hmin⟩ := isCompact_Icc.exists_isMinOn (Set.nonempty_Icc.mpr (by linarith)) hcont
  set m := (attitudeOf (y tm)).matrix 0 0 with hm
  have hm0 : 0 < m := hahead tm htm
  have hc : 0 < m / 2 := by linarith
  obtain ⟨B, L, ht⟩ := (waves_regular b hcor l hl cs W hW hc).tame (R := r + 1) (by linarith)
  set η := min 1 (m / 2 / (L0 + 1)) with hη
  have hη0 : 0 < η := lt_min one_pos (by positivity)
  obtain ⟨C, δ, hC, hδ, H⟩ := tube_converges (f := dated 13 f) ht hη0 T hT hD (fun t => y t ++ [t]) hyI (by
    intro t htI x hx hnear s
    have hIx : Inside (r + 1) x := fun i => (hnear.inside (hin t htI) i).trans (by linarith [min_le_left 1 (m / 2 / (L0 + 1))])
    have hIy : Inside (r + 1) (y t ++ [t]) := fun i => (hin t htI i).trans (by linarith)
    have h1 := (H0 x hIx).2 (y t ++ [t]) η hIy hnear
    simp only [hatt] at h1
    have h2 : m ≤ (attitudeOf (y t)).matrix 0 0 := hmin htI
    have h3 : L0 * η ≤ m / 2 := by
      have : η ≤ m / 2 / (L0 + 1) := min_le_right _ _
      rw [le_div_iff₀ (by linarith)] at this
      nlinarith
    have h4 : m / 2 ≤ (attitudeOf x).matrix 0 0 := by
      have := (abs_le.mp h1).1
      linarith
    obtain ⟨e0, -, -, -, e4⟩ := take_parts x hx
    rw [limited_eq hIx, dated, dated, waves_smoothed b l cs hcs W hWh hc _ e0 (by rw [e4]; exact h4)])
  refine ⟨C, δ, hC, hδ, fun dt hdt hd N hN => ?_⟩
  obtain ⟨h1, h2⟩ := run_dated hflen T hT hrows (y t0) (hy t0).1 t0 dt N
  have h3 := H dt hdt hd N hN
  rw [h2] at h3
  refine ⟨h1, fun i => ?_⟩
  have h4 := h3 i
  rw [dated_getD _ h1, dated_getD _ (hy _).1] at h4
  by_cases hi : i < 13
  · rwa [if_pos hi, if_pos hi] at h4
  · rw [List.getD_eq_default _ _ (by omega), List.getD_eq_default _ _ (by rw [(hy _).1]; omega), sub_zero, abs_zero]
    exact mul_nonneg hC hdt

/-- **C202** One body in waves, with the force model `diffraction`, the usual force models and controllers that read its heading, whose equations of motion have an exact solution along which the heading
stays between -90 and 90 degrees, simulated with any Runge-Kutta method that goes forward, whose weights have the sum 1 and whose stages are at the dates that their coefficients say: the simulation goes
to the end, and the observed states are at most `C dt` away from the exact ones, where `C` depends neither on the time step nor on the dates. -/
theorem waves_simulation_converges (e : Multi.Entry ℝ) (he : Alone e) {Ms : Mat6 ℝ} (hcor : e.body.coriolis = inertialForces Ms) (ae : Nat → ℝ → ℝ → Bool) (hae : ∀ n a, ae n a a = true) (ae1 : ℝ → Bool)
    (l : List Push) (W : WaveLoad) (hsea : Sea.GoodSea W.sea) {d : Sea.Diffraction} {periods : List ℝ}
    (hd : Sea.makeDiffraction ⟨W.H0 0, W.H0 1, W.H0 2⟩ W.mirror W.modules W.phases periods (some W.sea) = .ok d)
    (hl : e.forces = l.map (Push.model e.body) ++ [diffractionModel e.body d W.sea W.psiOf]) (hb : ∀ f ∈ l, ¬ f.InBody) (hreg : ∀ f ∈ l, f.Regular) (hW : W.Regular) (hWh : HeadingOf W.psiOf)
    (cs : List Control) (hc : e.controlled = cs.map (Control.model e.body)) (hcs : ∀ k ∈ cs, k.ReadsHeading)
    (T : Tableau ℝ) (hT : Forward T) (hw : WellWeighted T) (hrows : TimedRows 0 T.stages) (y : ℝ → List ℝ) (hy : IsMotion (newtonAt e.body.Minv (inWaves e.body l cs W)) y)
    (tstart D : ℝ) (hD : 0 ≤ D) (hu : Unit4 (attitudeOf (y tstart))) (hahead : ∀ t ∈ Set.Icc tstart (tstart + D), 0 < (attitudeOf (y t)).matrix 0 0) :
    ∃ C δ, 0 < δ ∧ ∀ dt, 0 < dt → dt ≤ δ → ∀ N : Nat, (N : ℝ) * dt ≤ D →
      ∀ tend, tend ≤ tstart + N * dt → (∀ i < N, tstart + (i : ℝ) * dt < tend) →
      ∀ s : Sim ℝ (Vec3 ℝ × Vec3 ℝ), s.state = y tstart → (∀ k ∈ cs, k.Commanded s.commands) → (∀ n, (field s.hist n).Tmax = 0) → NotAfter ae s.hist tstart → ∀ fuel, N ≤ fuel →
      ∀ sys, (sys = simSystem (oneBody e ae ae1) T.stepper ∨ sys = sscSystem (oneBody e ae ae1) T.stepper) →
      ∃ s' obs, quicksolve sys fuel s tstart tend dt = some (.ok (s', obs)) ∧ obs.length = N + 1 ∧
        ∀ (i : Nat) (hi : i < obs.length), obs[i].t = tstart + i * dt ∧ Near (C * dt) obs[i].x (y obs[i].t) := by
  obtain ⟨C, δ, hC, hδ, H⟩ := waves_run_converges e.body hcor l hreg cs hcs W hW hWh T hw hrows hD y hy hahead
  have hunit := timed_unit hy hu
  refine ⟨13 * C, min δ (1 / 24 / (C + 1)), lt_min hδ (by positivity), ?_⟩
  intro dt hdt hd' N hN tend htend hfirst s hs hcom h0 hh fuel hfuel sys hsys
  have hs13 : s.state.length = 13 := by rw [hs]; exact (hy tstart).1
  have hM := timed_memoryless e he ae ae1 s.commands (inWaves e.body l cs W) (fun h p u w q t h1 h2 => waves_sum e he l W hsea hd hl cs hc s.commands hcom hb t h1 h2)
  have key : ∃ s' obs, quicksolve sys fuel s tstart tend dt = some (.ok (s', obs)) ∧ obs.length = N + 1 ∧
      ∀ (i : Nat) (hi : i < obs.length), obs[i].t = tstart + i * dt ∧
        normalizeQuaternions ae1 1 (RK.rkRun (newtonAt e.body.Minv (inWaves e.body l cs W)) (fun x _ => x) T s.state tstart dt i) = .ok obs[i].x := by
    rcases hsys with rfl | rfl
    · obtain ⟨s', obs, h1, _, h3, h4⟩ := simulation_is_runge_kutta hM hae T hT s rfl hs13 h0 tstart tend dt hdt hh N htend hfirst fuel hfuel
      exact ⟨s', obs, h1, h3, h4⟩
    · obtain ⟨s', obs, h1, _, h3, h4⟩ := executable_is_runge_kutta hM hae T hT s rfl hs13 h0 tstart tend dt hdt hh N htend hfirst fuel hfuel
      exact ⟨s', obs, h1, h3, h4⟩
  obtain ⟨s', obs, h1, h2, h3⟩ := key
  refine ⟨s', obs, h1, h2, fun i hi => ?_⟩
  obtain ⟨h4, h5⟩ := h3 i hi
  refine ⟨h4, ?_⟩
  rw [h4]
  have hiN : (i : ℝ) * dt ≤ D := by
    have : (i : ℝ) ≤ N := by exact_mod_cast (by omega : i ≤ N)
    exact (mul_le_mul_of_nonneg_right this hdt.le).trans hN
  obtain ⟨hlen, h6⟩ := H dt hdt.le (hd'.trans (min_le_left _ _)) i hiN
  rw [hs, (normalize_unitQuaternion ae1 _ hlen).1] at h5
  rw [← Except.ok.inj h5]
  have hsmall : C * dt ≤ 1 / 24 := by
    have : dt ≤ 1 / 24 / (C + 1) := hd'.trans (min_le_right _ _)
    rw [le_div_iff₀ (by positivity)] at this
    nlinarith
  rw [mul_assoc]
  exact unitQuaternion_near ae1 hsmall hlen (hy _).1 (hunit _) h6

/-- The stages of `euler` and `rk4` are at the dates that their coefficients say. -/
theorem euler_timed : TimedRows 0 (eulerMethod : Tableau ℝ).stages := by simp [eulerMethod, TimedRows]

theorem rk4_timed : TimedRows 0 (rk4Method : Tableau ℝ).stages := by simp [rk4Method, TimedRows]

/-! ### A ball that a transverse wave pushes forward and backward -/

/-- A wave of amplitude 1 m and period 2π seconds that goes eastwards; its surge response is 1 N/m and the others are zero. -/
noncomputable def beamWave : WaveLoad where
  H0 := 0
  mirror := false
  modules := fun i _ _ => if i = 0 then 1 else 0
  phases := fun _ _ _ => 0
  sea := .waves [{ comps := [⟨1, 1, Real.pi / 2, 0, 1, 1⟩], phase := [0], pdyn := fun _ _ _ => 0, pdynSh := fun _ _ _ => 0 }]
  psiOf := compass

noncomputable def beamDiffraction : Sea.Diffraction :=
  ⟨⟨0, 0, 0⟩, false, beamWave.modules, beamWave.phases, Sea.toPeriods beamWave.sea.omegas, beamWave.sea.psis⟩

noncomputable def pushedBall : Multi.Entry ℝ := ⟨Server.top, [diffractionModel Server.top beamDiffraction beamWave.sea compass], []⟩

/-- It goes forward and backward. -/
noncomputable def pushedMotion (t : ℝ) : List ℝ := [Real.sin t, 0, 0, Real.cos t, 0, 0, 0, 0, 0, 1, 0, 0, 0]

theorem beam_built : Sea.makeDiffraction ⟨beamWave.H0 0, beamWave.H0 1, beamWave.H0 2⟩ beamWave.mirror beamWave.modules beamWave.phases [1, 10] (some beamWave.sea) = .ok beamDiffraction := by
  refine (Sea.makeDiffraction_iff _ _ _ _ _ _ _).mpr ⟨_, rfl, rfl, ?_⟩
  intro T hT f hf c hc
  simp only [List.head?_cons, Option.some.injEq] at hT
  subst hT
  have h3 := Real.pi_gt_d2
  have h4 := Real.pi_lt_d2
  simp only [beamWave, Sea.Sea.spectra, List.mem_singleton] at hf
  subst hf
  simp only [List.mem_singleton] at hc
  subst hc
  simp only [List.getLastD_cons, List.getLastD_nil]
  constructor <;> linarith

theorem beam_wrench (t : ℝ) (p : Vec3 ℝ) (hp : p 1 = 0) (q : Quat ℝ) : beamWave.wrench 0 t p q = (![-Real.sin t, 0, 0], 0) := by
  have h : ∀ i, beamWave.response t p q i = if i = 0 then Real.sin t else 0 := by
    intro i
    simp [WaveLoad.response, beamWave, Sea.seaResponse, Sea.Sea.spectra, Sea.waveResponse, Hdb.interpolateModule, Hdb.interpolatePhase, hp]
    split_ifs <;> simp
  simp only [WaveLoad.wrench, h]
  refine Prod.ext ?_ ?_
  · funext i; fin_cases i <;> simp
  · funext i; fin_cases i <;> simp [cross, beamWave]

theorem pushed_newton (t : ℝ) : newtonAt pushedBall.body.Minv (inWaves pushedBall.body [] [] beamWave) (pushedMotion t) t = [Real.cos t, 0, 0, -Real.sin t, 0, 0, 0, 0, 0, 0, 0, 0, 0] := by
  have ht : inWaves pushedBall.body [] [] beamWave t (positionOf (pushedMotion t)) (velocityOf (pushedMotion t)) (turnOf (pushedMotion t)) (attitudeOf (pushedMotion t)) = (![-Real.sin t, 0, 0], 0) := by
    have hb := beam_wrench t (positionOf (pushedMotion t)) rfl (attitudeOf (pushedMotion t))
    rw [inWaves, show pushedBall.body.G = 0 from rfl, hb]
    simp [total, resultant, pushedBall, Server.top, velocityOf, turnOf, pushedMotion, cross]
  rw [newtonAt, newton_parts _ _ _ rfl]
  simp only [acceleration, ht]
  simp only [pushedBall, Server.top, Matrix.one_mulVec]
  simp [vec13, pushedMotion, velocityOf, turnOf, attitudeOf, Quat.matrix, Matrix.mulVec, dotProduct, Fin.sum_univ_succ]

theorem pushed_motion : IsMotion (newtonAt pushedBall.body.Minv (inWaves pushedBall.body [] [] beamWave)) pushedMotion := by
  intro t
  refine ⟨rfl, fun i => ?_⟩
  rw [pushed_newton]
  have h0 : ∀ c : ℝ, HasDerivAt (fun _ : ℝ => c) 0 t := fun c => hasDerivAt_const _ _
  match i with
  | 0 => exact Real.hasDerivAt_sin t
  | 1 => exact h0 0
  | 2 => exact h0 0
  | 3 => exact Real.hasDerivAt_cos t
  | 4 => exact h0 0
  | 5 => exact h0 0
  | 6 => exact h0 0
  | 7 => exact h0 0
  | 8 => exact h0 0
  | 9 => exact h0 1
  | 10 => exact h0 0
  | 11 => exact h0 0
  | 12 => exact h0 0
  | n + 13 => exact h0 0

theorem constant_lipschitz (c : ℝ) : LipschitzOnIntervals (fun _ => c) := fun _ => ⟨0, fun a b _ _ => by simp⟩

/-- The simulations of this ball during a hundred seconds with `rk4`: the hypotheses of C202 are met, and the errors are at most a constant times the time step. -/
example : ∃ C δ, 0 < δ ∧ ∀ dt, 0 < dt → dt ≤ δ → ∀ N : Nat, (N : ℝ) * dt ≤ 100 →
    ∃ s' obs, quicksolve (simSystem (oneBody pushedBall (fun _ a b => decide (a = b)) (fun _ => false)) rk4Method.stepper) N
        ⟨pushedMotion 0, noHistory, fun _ => none, [], 0⟩ 0 (N * dt) dt = some (.ok (s', obs)) ∧ obs.length = N + 1 ∧
      ∀ (i : Nat) (hi : i < obs.length), obs[i].t = 0 + i * dt ∧ Near (C * dt) obs[i].x (pushedMotion obs[i].t) := by
  obtain ⟨C, δ, hδ, H⟩ := waves_simulation_converges pushedBall ⟨rfl, by decide, fun _ => rfl⟩ (Ms := 1) top_inertial (fun _ a b => decide (a = b)) (by simp) (fun _ => false)
    [] beamWave (by intro f hf; rw [List.mem_singleton.mp hf]; rfl) beam_built rfl (by simp) (by simp)
    (by
      intro f hf c hc i
      have e1 : Hdb.interpolateModule (beamWave.modules i) beamWave.mirror i (2 * Real.pi / c.omega) = fun _ => if i = 0 then 1 else 0 := by
        funext b; simp [Hdb.interpolateModule, beamWave]
      have e2 : Hdb.interpolatePhase (beamWave.phases i) beamWave.mirror i (2 * Real.pi / c.omega) = fun _ => 0 := by
        funext b; simp [Hdb.interpolatePhase, beamWave]
      rw [e1, e2]
      exact ⟨constant_lipschitz _, constant_lipschitz _⟩) (fun R _ => rfl)
    [] rfl (by simp) rk4Method rk4_forward rk4_weighted rk4_timed pushedMotion pushed_motion 0 100 (by norm_num)
    (by simp [pushedMotion, Unit4, attitudeOf]) (fun t _ => by simp [pushedMotion, attitudeOf, Quat.matrix])
  refine ⟨C, δ, hδ, fun dt hdt hd N hN => H dt hdt hd N hN (N * dt) (by rw [zero_add]) (fun i hi => ?_) _ rfl (by simp) (fun n => by cases n <;> rfl) (noHistory_notAfter _ _) N le_rfl _ (Or.inl rfl)⟩
  rw [zero_add]
  exact mul_lt_mul_of_pos_right (by exact_mod_cast hi) hdt

end Xdyn.Sim

import Verif.Spec.State
import Verif.Lemmas.MultiBody
import Verif.Props.Body
import Mathlib.Tactic.Ring
import Mathlib.Tactic.LinearCombination
import Mathlib.Algebra.BigOperators.Group.List.Basic

/-
C119: the wrench that moves a body is the sum of all its wrenches.
C120: the derivatives computed for a state do not depend on the evaluations made before.
C121: bodies do not act on each other.
-/

namespace Xdyn.Multi

open Blocked Body Sim

variable {K : Type} [Field K] [LinearOrder K] [IsStrictOrderedRing K]

/-! ### C119 -/

/-- Power of a wrench given in the frame `A` at the point `P` of that frame, in a motion of the
body (frame `B`) whose point `G` has velocity `vG` and which turns at `om` (coordinates in the body
frame): everything is expressed in NED. -/
def powerInNed (A B : Frame K) (w : Wrench K) (G vG om : Vec3 K) : K :=
  let P := A.R.mulVec w.P + A.o
  let PB := B.R.transpose.mulVec (P - B.o)
  let v := B.R.mulVec (vG + cross om (PB - G))
  dot (A.R.mulVec w.force) v + dot (A.R.mulVec w.torque) (B.R.mulVec om)

/-- Power of a wrench given at `G` in the body frame. -/
def powerAtG (w : Vec3 K × Vec3 K) (vG om : Vec3 K) : K := dot w.1 vG + dot w.2 om

/-- What a wrench adds to the sum. -/
def contribution (b : MBody K) (k : Kin K) (tau : Wrench K) : Except Err (Vec3 K × Vec3 K) :=
  if tau.frame ≠ b.name then do
    let T ← k.get tau.frame b.name
    let force := T.R.transpose.mulVec tau.force
    let torque := T.R.transpose.mulVec tau.torque
    let P := T.R.transpose.mulVec (tau.P - T.o)
    return (force, torque + cross (P - b.G) force)
  else return (tau.force, tau.torque)

omit [IsStrictOrderedRing K] in
theorem addForce_eq (b : MBody K) (h : States (History K)) (k : Kin K) (t : K) (s : Vec3 K × Vec3 K) (f : Force K) :
    addForce b h k t s f = (do let tau ← f h k t; let c ← contribution b k tau; return s + c) := by
  unfold addForce contribution
  cases f h k t with
  | error e => rfl
  | ok tau =>
    simp only [bind, Except.bind, pure, Except.pure]
    split
    · cases Kin.get k tau.frame b.name <;> rfl
    · rfl

/-- A loop that adds the values computed from the elements of a list. -/
theorem foldlM_sum {α M : Type} [AddCommMonoid M] (g : α → Except Err M) (l : List α) (s r : M) :
    l.foldlM (fun s a => do let c ← g a; return s + c) s = .ok r ↔
      ∃ cs, l.mapM g = .ok cs ∧ r = s + cs.sum := by
  induction l generalizing s with
  | nil => simp [pure, Except.pure, eq_comm]
  | cons a l ih =>
    rw [List.foldlM_cons, List.mapM_cons]
    cases hg : g a with
    | error e => simp [bind, Except.bind]
    | ok c =>
      have : ((do let c ← (Except.ok c : Except Err M); pure (s + c)) >>= fun s' =>
          List.foldlM (fun s a => do let c ← g a; return s + c) s' l) =
          List.foldlM (fun s a => do let c ← g a; return s + c) (s + c) l := rfl
      rw [this, ih]
      constructor
      · rintro ⟨cs, h1, h2⟩
        refine ⟨c :: cs, ?_, ?_⟩
        · simp [h1, bind, Except.bind, pure, Except.pure]
        · rw [h2, List.sum_cons, add_assoc]
      · rintro ⟨cs, h1, h2⟩
        simp only [bind, Except.bind, pure, Except.pure] at h1
        cases hm : l.mapM g with
        | error e => rw [hm] at h1; cases h1
        | ok cs' =>
          rw [hm] at h1
          cases h1
          exact ⟨cs', rfl, by rw [h2, List.sum_cons, add_assoc]⟩

/-- The value of a force model at an instant. -/
def valueOf (b : MBody K) (h : States (History K)) (k : Kin K) (t : K) (f : Force K) : Except Err (Vec3 K × Vec3 K) := do
  let tau ← f h k t
  contribution b k tau

omit [IsStrictOrderedRing K] in
theorem sumOfForces_iff (c : Commands K) (b : MBody K) (forces : List (Force K)) (controlled : List (Controlled K))
    (h : States (History K)) (k : Kin K) (x : List K) (t : K) (F : Vec3 K × Vec3 K) :
    sumOfForces c b forces controlled h k x t = .ok F ↔
      ∃ v ws cs, uvwpqr x b.idx = .ok v ∧ forces.mapM (valueOf b h k t) = .ok ws ∧
        controlled.mapM (fun f => f c h k t) = .ok cs ∧ F = b.coriolis v.1 v.2 + ws.sum + cs.sum := by
  have e1 : addForce b h k t = fun s f => do let c ← valueOf b h k t f; return s + c := by
    funext s f
    rw [addForce_eq]
    unfold valueOf
    cases f h k t <;> rfl
  have e2 : addControlled c h k t = fun s f => do let w ← (fun f : Controlled K => f c h k t) f; return s + w := by
    funext s f
    rfl
  unfold sumOfForces
  rw [e1, e2]
  constructor
  · intro H
    obtain ⟨v, hv, H⟩ := bind_ok H
    obtain ⟨s, hs, H⟩ := bind_ok H
    obtain ⟨ws, hws, rfl⟩ := (foldlM_sum (valueOf b h k t) forces _ s).mp hs
    obtain ⟨cs, hcs, rfl⟩ := (foldlM_sum (fun f : Controlled K => f c h k t) controlled _ F).mp H
    exact ⟨v, ws, cs, hv, hws, hcs, rfl⟩
  · rintro ⟨v, ws, cs, hv, hws, hcs, rfl⟩
    rw [hv]
    have h1 := (foldlM_sum (valueOf b h k t) forces (b.coriolis v.1 v.2) _).mpr ⟨ws, hws, rfl⟩
    show (List.foldlM (fun s f => do let c ← valueOf b h k t f; return s + c) (b.coriolis v.1 v.2) forces >>= _) = _
    rw [h1]
    exact (foldlM_sum (fun f : Controlled K => f c h k t) controlled _ _).mpr ⟨cs, hcs, rfl⟩

/-- C119: the order in which the force models of a body are given does not matter. -/
theorem sum_of_forces_order (c : Commands K) (b : MBody K) (forces forces' : List (Force K))
    (controlled controlled' : List (Controlled K)) (hf : forces.Perm forces') (hc : controlled.Perm controlled')
    (h : States (History K)) (k : Kin K) (x : List K) (t : K) (F : Vec3 K × Vec3 K) :
    sumOfForces c b forces controlled h k x t = .ok F ↔ sumOfForces c b forces' controlled' h k x t = .ok F := by
  have perm : ∀ {α M : Type} [AddCommMonoid M] (g : α → Except Err M) {l l' : List α}, l.Perm l' →
      ∀ cs, l.mapM g = .ok cs → ∃ cs', l'.mapM g = .ok cs' ∧ cs'.sum = cs.sum := by
    intro α M _ g l l' hp
    induction hp with
    | nil => intro cs h; exact ⟨cs, h, rfl⟩
    | cons a _ ih =>
      intro cs h
      rw [List.mapM_cons] at h ⊢
      obtain ⟨c, hc, h⟩ := bind_ok h
      obtain ⟨cs1, h1, h⟩ := bind_ok h
      cases h
      obtain ⟨cs2, h2, e⟩ := ih cs1 h1
      exact ⟨c :: cs2, by rw [hc, h2]; rfl, by simp [e]⟩
    | swap a a' l =>
      intro cs h
      rw [List.mapM_cons] at h
      obtain ⟨c, hc, h⟩ := bind_ok h
      obtain ⟨cs1, h1, h⟩ := bind_ok h
      cases h
      rw [List.mapM_cons] at h1
      obtain ⟨c', hc', h1⟩ := bind_ok h1
      obtain ⟨cs2, h2, h1⟩ := bind_ok h1
      cases h1
      refine ⟨c' :: c :: cs2, ?_, ?_⟩
      · rw [List.mapM_cons, List.mapM_cons, hc, hc', h2]; rfl
      · simp only [List.sum_cons]; rw [← add_assoc, ← add_assoc, add_comm c' c]
    | trans _ _ ih1 ih2 =>
      intro cs h
      obtain ⟨cs1, h1, e1⟩ := ih1 cs h
      obtain ⟨cs2, h2, e2⟩ := ih2 cs1 h1
      exact ⟨cs2, h2, e2.trans e1⟩
  rw [sumOfForces_iff, sumOfForces_iff]
  constructor
  · rintro ⟨v, ws, cs, hv, hws, hcs, rfl⟩
    obtain ⟨ws', h1, e1⟩ := perm _ hf ws hws
    obtain ⟨cs', h2, e2⟩ := perm _ hc cs hcs
    exact ⟨v, ws', cs', hv, h1, h2, by rw [e1, e2]⟩
  · rintro ⟨v, ws, cs, hv, hws, hcs, rfl⟩
    obtain ⟨ws', h1, e1⟩ := perm _ hf.symm ws hws
    obtain ⟨cs', h2, e2⟩ := perm _ hc.symm cs hcs
    exact ⟨v, ws', cs', hv, h1, h2, by rw [e1, e2]⟩

omit [LinearOrder K] [IsStrictOrderedRing K] in
theorem dot_eq (a b : Vec3 K) : dot a b = a ⬝ᵥ b := by
  simp [dot, dotProduct, Fin.sum_univ_three]

omit [LinearOrder K] [IsStrictOrderedRing K] in
theorem dot_mulVec (A B : Mat3 K) (u v : Vec3 K) :
    dot (A.mulVec u) (B.mulVec v) = dot ((B.transpose * A).mulVec u) v := by
  rw [dot_eq, dot_eq, Matrix.dotProduct_mulVec, Matrix.vecMul_mulVec, ← Matrix.vecMul_transpose (B.transpose * A),
    Matrix.transpose_mul, Matrix.transpose_transpose]

omit [LinearOrder K] [IsStrictOrderedRing K] in
theorem c0 (a b : Vec3 K) : cross a b 0 = a 1 * b 2 - a 2 * b 1 := rfl
omit [LinearOrder K] [IsStrictOrderedRing K] in
theorem c1 (a b : Vec3 K) : cross a b 1 = a 2 * b 0 - a 0 * b 2 := rfl
omit [LinearOrder K] [IsStrictOrderedRing K] in
theorem c2 (a b : Vec3 K) : cross a b 2 = a 0 * b 1 - a 1 * b 0 := rfl

omit [LinearOrder K] [IsStrictOrderedRing K] in
theorem power_transport (F M vG om d : Vec3 K) :
    dot F (vG + cross om d) + dot M om = dot F vG + dot (M + cross d F) om := by
  simp only [dot, c0, c1, c2, Pi.add_apply]
  ring

/-- The frame of a body or another one is orthonormal. -/
def Orthonormal (A : Frame K) : Prop := A.R * A.R.transpose = 1 ∧ A.R.transpose * A.R = 1

omit [IsStrictOrderedRing K] in
theorem contribution_power (b : MBody K) (k : Kin K) (tau : Wrench K) (A B : Frame K)
    (hA : frameOf k tau.frame = some A) (hB : frameOf k b.name = some B) (oA : Orthonormal A) (oB : Orthonormal B)
    (hG : tau.frame = b.name → tau.P = b.G) :
    ∃ w, contribution b k tau = .ok w ∧ ∀ vG om, powerAtG w vG om = powerInNed A B tau b.G vG om := by
  unfold contribution
  by_cases hn : tau.frame = b.name
  · rw [if_neg (by simpa using hn)]
    refine ⟨_, rfl, fun vG om => ?_⟩
    have hAB : A = B := by rw [hn] at hA; rw [hA] at hB; exact Option.some.inj hB
    subst hAB
    have hP : A.R.transpose.mulVec (A.R.mulVec tau.P + A.o - A.o) = b.G := by
      rw [add_sub_cancel_right, Matrix.mulVec_mulVec, oA.2, Matrix.one_mulVec, hG hn]
    simp only [powerInNed, powerAtG, hP, dot_mulVec, oA.2, Matrix.one_mulVec, sub_self]
    simp [dot, c0, c1, c2]
  · rw [if_pos hn]
    simp only [Kin.get, hA, hB, bind, Except.bind, pure, Except.pure]
    refine ⟨_, rfl, fun vG om => ?_⟩
    have e1 : Matrix.transpose (Matrix.transpose A.R * B.R) = B.R.transpose * A.R := by
      rw [Matrix.transpose_mul, Matrix.transpose_transpose]
    have hP : (B.R.transpose * A.R).mulVec (tau.P - A.R.transpose.mulVec (B.o - A.o)) =
        B.R.transpose.mulVec (A.R.mulVec tau.P + A.o - B.o) := by
      rw [← Matrix.mulVec_mulVec, Matrix.mulVec_sub, Matrix.mulVec_mulVec _ A.R, oA.1, Matrix.one_mulVec]
      congr 1
      abel
    simp only [powerInNed, powerAtG, e1, hP, dot_mulVec]
    rw [power_transport]

/-- C119: the wrench computed for a body has in every motion of the body the power of the Coriolis
and centripetal forces and of all the wrenches of its force models, wherever they are applied and in
whatever known frame they are given, provided the ones given in the frame of the body itself are
given at `G`. -/
theorem sum_of_forces_power_partial (c : Commands K) (b : MBody K) (forces : List (Force K))
    (controlled : List (Controlled K)) (h : States (History K)) (k : Kin K) (x : List K) (t : K)
    (v : Vec3 K × Vec3 K) (hv : uvwpqr x b.idx = .ok v)
    (taus : List (Wrench K)) (htau : forces.mapM (fun f => f h k t) = .ok taus)
    (cs : List (Vec3 K × Vec3 K)) (hcs : controlled.mapM (fun f => f c h k t) = .ok cs)
    (B : Frame K) (hB : frameOf k b.name = some B) (oB : Orthonormal B)
    (frames : String → Frame K) (hA : ∀ tau ∈ taus, frameOf k tau.frame = some (frames tau.frame) ∧ Orthonormal (frames tau.frame))
    (hG : ∀ tau ∈ taus, tau.frame = b.name → tau.P = b.G) :
    ∃ F, sumOfForces c b forces controlled h k x t = .ok F ∧ ∀ vG om,
      powerAtG F vG om = powerAtG (b.coriolis v.1 v.2) vG om +
        (taus.map (fun tau => powerInNed (frames tau.frame) B tau b.G vG om)).sum +
        (cs.map (fun w => powerAtG w vG om)).sum := by
  have key : ∀ (forces : List (Force K)) (taus : List (Wrench K)), forces.mapM (fun f => f h k t) = .ok taus →
      (∀ tau ∈ taus, frameOf k tau.frame = some (frames tau.frame) ∧ Orthonormal (frames tau.frame)) →
      (∀ tau ∈ taus, tau.frame = b.name → tau.P = b.G) →
      ∃ ws, forces.mapM (valueOf b h k t) = .ok ws ∧ ∀ vG om, powerAtG ws.sum vG om =
        (taus.map (fun tau => powerInNed (frames tau.frame) B tau b.G vG om)).sum := by
    intro forces
    induction forces with
    | nil =>
      intro taus h1 _ _
      cases h1
      refine ⟨[], rfl, fun vG om => ?_⟩
      simp [powerAtG, dot]
    | cons f l ih =>
      intro taus h1 h2 h3
      rw [List.mapM_cons] at h1
      obtain ⟨tau, ht, h1⟩ := bind_ok h1
      obtain ⟨taus', ht', h1⟩ := bind_ok h1
      cases h1
      obtain ⟨ws, hws, hp⟩ := ih taus' ht' (fun a ha => h2 a (List.mem_cons_of_mem _ ha))
        (fun a ha => h3 a (List.mem_cons_of_mem _ ha))
      obtain ⟨w, hw, hpw⟩ := contribution_power b k tau _ B (h2 tau List.mem_cons_self).1 hB
        (h2 tau List.mem_cons_self).2 oB (h3 tau List.mem_cons_self)
      refine ⟨w :: ws, ?_, fun vG om => ?_⟩
      · rw [List.mapM_cons]
        have : valueOf b h k t f = .ok w := by unfold valueOf; rw [ht]; exact hw
        rw [this, hws]; rfl
      · rw [List.map_cons, List.sum_cons, List.sum_cons, ← hpw, ← hp]
        simp only [powerAtG, dot, Prod.fst_add, Prod.snd_add, Pi.add_apply]
        ring
  obtain ⟨ws, hws, hp⟩ := key forces taus htau hA hG
  refine ⟨_, (sumOfForces_iff c b forces controlled h k x t _).mpr ⟨v, ws, cs, hv, hws, hcs, rfl⟩, fun vG om => ?_⟩
  rw [← hp]
  have hc2 : powerAtG cs.sum vG om = (cs.map (fun w => powerAtG w vG om)).sum := by
    clear hcs
    induction cs with
    | nil => simp [powerAtG, dot]
    | cons w cs ih =>
      rw [List.map_cons, List.sum_cons, List.sum_cons, ← ih]
      simp only [powerAtG, dot, Prod.fst_add, Prod.snd_add, Pi.add_apply]
      ring
  rw [← hc2]
  simp only [powerAtG, dot, Prod.fst_add, Prod.snd_add, Pi.add_apply]
  ring

omit [IsStrictOrderedRing K] in
/-- C119: the point of application of a wrench given in the frame of the body is ignored. -/
theorem sum_of_forces_ignores_point (b : MBody K) (k : Kin K) (P P' force torque : Vec3 K) :
    contribution b k ⟨b.name, P, force, torque⟩ = contribution b k ⟨b.name, P', force, torque⟩ := by
  simp [contribution]

/-- A body named "a" with its centre of gravity one metre ahead of the origin of its frame. -/
def bodyA : MBody ℚ where
  name := "a"
  idx := 0
  blocked := ⟨fun _ => none, 0, fun _ => none, fun _ => none⟩
  G := ![1, 0, 0]
  Minv := 1
  coriolis := fun _ _ => 0

/-- A body named "b". -/
def bodyB : MBody ℚ := { bodyA with name := "b", idx := 1, blocked := ⟨fun _ => none, 1, fun _ => none, fun _ => none⟩, G := 0 }

/-- A side force on body "a" at the origin of its frame, as `DampingForceModel.cpp:28` and
`ResistanceCurveForceModel.cpp:62` give their wrenches at the point where the hydrodynamic forces
are calculated. -/
def sideForce : Wrench ℚ := ⟨"a", 0, ![0, 1, 0], 0⟩

/-- C119 is false for wrenches given in the frame of the body at another point than `G`: their
moment about `G` is lost. -/
theorem sum_of_forces_power_refuted :
    ∃ (k : Kin ℚ) (B : Frame ℚ) (w : Vec3 ℚ × Vec3 ℚ) (vG om : Vec3 ℚ), frameOf k "a" = some B ∧ Orthonormal B ∧
      contribution bodyA k sideForce = .ok w ∧ powerAtG w vG om ≠ powerInNed B B sideForce bodyA.G vG om := by
  refine ⟨[("a", ⟨0, 1⟩)], ⟨0, 1⟩, (![0, 1, 0], 0), 0, ![0, 0, 1], rfl, ⟨by simp, by simp⟩, rfl, ?_⟩
  simp [powerAtG, powerInNed, dot, c0, c1, c2, sideForce, bodyA]

/-! ### C120 -/

/-- The frames that a body updates. -/
def OwnFrame (b : MBody K) (n : String) : Prop := n = b.name ∨ n = "NED(" ++ b.name ++ ")"

/-- Two states of the shared frames agree on the frames of `A`. -/
def Agree (A : String → Prop) (k k' : Kin K) : Prop := ∀ n, A n → frameOf k n = frameOf k' n

/-- A force model that uses only the frames of `A`. -/
def UsesOnly (A : String → Prop) (f : Force K) : Prop :=
  ∀ h t k k', Agree A k k' → f h k t = f h k' t ∧ ∀ tau, f h k t = .ok tau → A tau.frame

/-- The same for a controlled force. -/
def UsesOnlyC (A : String → Prop) (f : Controlled K) : Prop :=
  ∀ c h t k k', Agree A k k' → f c h k t = f c h k' t

omit [IsStrictOrderedRing K] in
theorem sumOfForces_same {A : String → Prop} {c : Commands K} {b : MBody K} {fs : List (Force K)}
    {cs : List (Controlled K)} {h : States (History K)} {k k' : Kin K} {x x' : List K} {t : K}
    (hA : A b.name) (hf : ∀ f ∈ fs, UsesOnly A f) (hc : ∀ f ∈ cs, UsesOnlyC A f)
    (hk : Agree A k k') (hx : SameBlock b.idx x x') :
    sumOfForces c b fs cs h k x t = sumOfForces c b fs cs h k' x' t := by
  unfold sumOfForces
  rw [uvwpqr_same hx]
  have e1 : ∀ (l : List (Force K)), (∀ f ∈ l, UsesOnly A f) → ∀ s,
      l.foldlM (addForce b h k t) s = l.foldlM (addForce b h k' t) s := by
    intro l
    induction l with
    | nil => intro _ s; rfl
    | cons f l ih =>
      intro hl s
      rw [List.foldlM_cons, List.foldlM_cons]
      have hu := hl f List.mem_cons_self h t k k' hk
      have : addForce b h k t s f = addForce b h k' t s f := by
        rw [addForce_eq, addForce_eq, ← hu.1]
        cases hh : f h k t with
        | error e => rfl
        | ok tau =>
          have hfr := hu.2 tau hh
          have : contribution b k tau = contribution b k' tau := by
            simp only [contribution, Kin.get, hk _ hfr, hk _ hA]
          simp only [bind, Except.bind, this]
      rw [this]
      congr 1
      funext s'
      exact ih (fun f hf => hl f (List.mem_cons_of_mem _ hf)) s'
  have e2 : ∀ (l : List (Controlled K)), (∀ f ∈ l, UsesOnlyC A f) → ∀ s,
      l.foldlM (addControlled c h k t) s = l.foldlM (addControlled c h k' t) s := by
    intro l
    induction l with
    | nil => intro _ s; rfl
    | cons f l ih =>
      intro hl s
      rw [List.foldlM_cons, List.foldlM_cons]
      have hu := hl f List.mem_cons_self c h t k k' hk
      have : addControlled c h k t s f = addControlled c h k' t s f := by
        simp only [addControlled, hu]
      rw [this]
      congr 1
      funext s'
      exact ih (fun f hf => hl f (List.mem_cons_of_mem _ hf)) s'
  simp only [e1 fs hf, e2 cs hc]

omit [LinearOrder K] [IsStrictOrderedRing K] in
theorem frameOf_congr_set {A : String → Prop} {k k' : Kin K} (h : Agree A k k') (n : String) (F : Frame K) :
    Agree (fun m => A m ∨ m = n) (k.set n F) (k'.set n F) := by
  intro m hm
  unfold frameOf
  rw [find_set', find_set']
  by_cases h1 : m = "NED"
  · rw [if_pos h1, if_pos h1]
  · rw [if_neg h1, if_neg h1]
    by_cases h2 : m = n
    · rw [if_pos h2, if_pos h2]
    · rw [if_neg h2, if_neg h2]
      have := h m (hm.resolve_right h2)
      unfold frameOf at this
      rwa [if_neg h1, if_neg h1] at this

omit [LinearOrder K] [IsStrictOrderedRing K] in
theorem updateKinematics_same {A : String → Prop} {b : MBody K} {x x' : List K} {k k' : Kin K}
    (hx : SameBlock b.idx x x') (hk : Agree A k k') :
    ERel (Agree fun n => A n ∨ OwnFrame b n) (updateKinematics b x k) (updateKinematics b x' k') := by
  unfold updateKinematics rotFromNedTo
  rw [getOrigin_same hx, quatOf_same hx]
  refine ERel.bind (ERel.refl (fun _ => rfl) _) fun o _ e => ?_
  cases e
  refine ERel.bind (ERel.refl (fun _ => rfl) _) fun R _ e => ?_
  cases e
  intro n hn
  refine frameOf_congr_set (frameOf_congr_set hk _ _) _ _ n ?_
  rcases hn with hn | hn | hn
  · exact Or.inl (Or.inl hn)
  · exact Or.inl (Or.inr hn)
  · exact Or.inr hn

theorem updateBodyStates_same {ae : Nat → K → K → Bool} {b : MBody K} {h : States (History K)} {x x' : List K} {t : K}
    (hb : b.blocked.bodyIdx = b.idx) (hx : SameBlock b.idx x x') :
    updateBodyStates ae b h x t = updateBodyStates ae b h x' t := by
  unfold updateBodyStates
  have h1 := forceStates_same (b := b.blocked) (x := x) (x' := x') (by rw [hb]; exact hx) t
  rw [hb] at h1
  cases e : forceStates b.blocked x t with
  | error er =>
    cases e' : forceStates b.blocked x' t with
    | error er' => rw [e, e'] at h1; cases (show er = er' from h1); rfl
    | ok y' => rw [e, e'] at h1; exact h1.elim
  | ok y =>
    cases e' : forceStates b.blocked x' t with
    | error er' => rw [e, e'] at h1; exact h1.elim
    | ok y' =>
      rw [e, e'] at h1
      have h2 : SameBlock b.idx y y' := h1
      simp only [bind, Except.bind,
        h2.getUB (p := XIDX b.idx) 0 (by decide) rfl, h2.getUB (p := YIDX b.idx) 1 (by decide) rfl,
        h2.getUB (p := ZIDX b.idx) 2 (by decide) rfl,
        h2.getUB (p := UIDX b.idx) 3 (by decide) rfl, h2.getUB (p := VIDX b.idx) 4 (by decide) rfl,
        h2.getUB (p := WIDX b.idx) 5 (by decide) rfl, h2.getUB (p := PIDX b.idx) 6 (by decide) rfl,
        h2.getUB (p := QIDX b.idx) 7 (by decide) rfl, h2.getUB (p := RIDX b.idx) 8 (by decide) rfl,
        h2.getUB (p := QRIDX b.idx) 9 (by decide) rfl, h2.getUB (p := QIIDX b.idx) 10 (by decide) rfl,
        h2.getUB (p := QJIDX b.idx) 11 (by decide) rfl, h2.getUB (p := QKIDX b.idx) 12 (by decide) rfl]

/-- Two evaluations of the same body, in simulations that may differ. -/
theorem stepBody_same {ae : Nat → K → K → Bool} {M M' : Maps K} {c : Commands K} {x x' : List K} {t : K}
    {w w' : World K} {b : MBody K} {h : States (History K)} {A : String → Prop} {S : Nat → Prop}
    (hb : b.blocked.bodyIdx = b.idx) (hx : SameBlock b.idx x x')
    (hM : lookup M.forces b.name = lookup M'.forces b.name)
    (hM' : lookup M.controlled b.name = lookup M'.controlled b.name)
    (hf : ∀ f ∈ lookup M.forces b.name, UsesOnly (fun n => A n ∨ OwnFrame b n) f)
    (hc : ∀ f ∈ lookup M.controlled b.name, UsesOnlyC (fun n => A n ∨ OwnFrame b n) f)
    (hk : Agree A w.kin w'.kin) (hdx : SameAt S w.dx w'.dx) :
    ERel (fun r r' => Agree (fun n => A n ∨ OwnFrame b n) r.1.kin r'.1.kin ∧
        SameAt (fun p => S p ∨ ∃ j, j < 13 ∧ p = b.idx * 13 + j) r.1.dx r'.1.dx ∧ r.2 = r'.2 ∧
        (∃ F, r.1.sums = w.sums.set b.name F ∧ r'.1.sums = w'.sums.set b.name F))
      (stepBody ae M c x t w b h) (stepBody ae M' c x' t w' b h) := by
  unfold stepBody
  refine ERel.bind (updateKinematics_same hx hk) fun k1 k1' hk1 => ?_
  rw [updateBodyStates_same hb hx]
  refine ERel.bind (ERel.refl (fun _ => rfl) _) fun h1 _ e => ?_
  cases e
  rw [← hM, ← hM', sumOfForces_same (A := fun n => A n ∨ OwnFrame b n) (Or.inr (Or.inl rfl)) hf hc hk1 hx]
  refine ERel.bind (ERel.refl (fun _ => rfl) _) fun F _ e => ?_
  cases e
  have hT : Kin.get k1 "NED" b.name = Kin.get k1' "NED" b.name := by
    have h0 : frameOf k1 "NED" = frameOf k1' "NED" := by simp [frameOf]
    simp only [Kin.get, h0, hk1 b.name (Or.inr (Or.inl rfl))]
  rw [hT]
  refine ERel.bind (ERel.refl (fun _ => rfl) _) fun T _ e => ?_
  cases e
  refine ERel.bind (stateDerivatives_same hx hdx) fun d d' hd => ?_
  exact ⟨hk1, hd, rfl, F, rfl, rfl⟩

/-- **C120** During the evaluation of a body, its force models get the histories in which the current values have just been recorded, and the frames
of the body at the current position: its own frame, turned as its quaternion says, and the frame `NED(body)`, which has the same origin
and is not turned.  Their sum is stored under the name of the body. -/
theorem force_models_get_the_current_state {ae : Nat → K → K → Bool} {M : Maps K} {c : Commands K} {x : List K} {t : K}
    {w w' : World K} {b : MBody K} {h h' : States (History K)} (hn : b.name ≠ "NED") (hb : stepBody ae M c x t w b h = .ok (w', h')) :
    (∃ x', forceStates b.blocked x t = .ok x' ∧
      ∀ s, ∃ a, x'[Spec.slot b.idx s]? = some a ∧ (Spec.field h s).record ae t a = .ok (Spec.field h' s)) ∧
    (∃ F, sumOfForces c b (lookup M.forces b.name) (lookup M.controlled b.name) h' w'.kin x t = .ok F ∧ w'.sums.find b.name = some F) ∧
    (∃ X Y Z qr qi qj qk, x[Spec.slot b.idx .x]? = some X ∧ x[Spec.slot b.idx .y]? = some Y ∧ x[Spec.slot b.idx .z]? = some Z ∧
      x[Spec.slot b.idx .qr]? = some qr ∧ x[Spec.slot b.idx .qi]? = some qi ∧ x[Spec.slot b.idx .qj]? = some qj ∧ x[Spec.slot b.idx .qk]? = some qk ∧
      frameOf w'.kin b.name = some ⟨![X, Y, Z], Quat.matrix ⟨qr, qi, qj, qk⟩⟩ ∧
      frameOf w'.kin ("NED(" ++ b.name ++ ")") = some ⟨![X, Y, Z], 1⟩) := by
  have gi : ∀ {l : List K} {i : Nat} {a : K}, getUB l i = .ok a → l[i]? = some a := by
    intro l i a h
    unfold getUB at h
    cases hl : l[i]? with
    | none => rw [hl] at h; cases h
    | some b => rw [hl] at h; cases h; rfl
  have sl : ∀ s, Spec.slot b.idx s = b.idx * nbOfStatesPerBody + s.rank := by
    intro s; unfold Spec.slot nbOfStatesPerBody; omega
  unfold stepBody at hb
  obtain ⟨kin, hk, hb⟩ := bind_ok hb
  obtain ⟨h1, hh, hb⟩ := bind_ok hb
  obtain ⟨F, hF, hb⟩ := bind_ok hb
  obtain ⟨T, hT, hb⟩ := bind_ok hb
  obtain ⟨dx, hd, hb⟩ := bind_ok hb
  simp only [pure, Except.pure, Except.ok.injEq, Prod.mk.injEq] at hb
  obtain ⟨rfl, rfl⟩ := hb
  refine ⟨?_, ⟨F, hF, by simp only; rw [find_set', if_pos rfl]⟩, ?_⟩
  · unfold updateBodyStates States.record at hh
    obtain ⟨x', hx', hh⟩ := bind_ok hh
    obtain ⟨a0, g0, hh⟩ := bind_ok hh
    obtain ⟨a1, g1, hh⟩ := bind_ok hh
    obtain ⟨a2, g2, hh⟩ := bind_ok hh
    obtain ⟨a3, g3, hh⟩ := bind_ok hh
    obtain ⟨a4, g4, hh⟩ := bind_ok hh
    obtain ⟨a5, g5, hh⟩ := bind_ok hh
    obtain ⟨a6, g6, hh⟩ := bind_ok hh
    obtain ⟨a7, g7, hh⟩ := bind_ok hh
    obtain ⟨a8, g8, hh⟩ := bind_ok hh
    obtain ⟨a9, g9, hh⟩ := bind_ok hh
    obtain ⟨a10, g10, hh⟩ := bind_ok hh
    obtain ⟨a11, g11, hh⟩ := bind_ok hh
    obtain ⟨a12, g12, hh⟩ := bind_ok hh
    obtain ⟨r0, k0, hh⟩ := bind_ok hh
    obtain ⟨r1, k1, hh⟩ := bind_ok hh
    obtain ⟨r2, k2, hh⟩ := bind_ok hh
    obtain ⟨r3, k3, hh⟩ := bind_ok hh
    obtain ⟨r4, k4, hh⟩ := bind_ok hh
    obtain ⟨r5, k5, hh⟩ := bind_ok hh
    obtain ⟨r6, k6, hh⟩ := bind_ok hh
    obtain ⟨r7, k7, hh⟩ := bind_ok hh
    obtain ⟨r8, k8, hh⟩ := bind_ok hh
    obtain ⟨r9, k9, hh⟩ := bind_ok hh
    obtain ⟨r10, k10, hh⟩ := bind_ok hh
    obtain ⟨r11, k11, hh⟩ := bind_ok hh
    obtain ⟨r12, k12, hh⟩ := bind_ok hh
    simp only [pure, Except.pure, Except.ok.injEq] at hh
    subst hh
    refine ⟨x', hx', ?_⟩
    intro s
    rw [sl]
    cases s
    · exact ⟨a0, gi g0, k0⟩
    · exact ⟨a1, gi g1, k1⟩
    · exact ⟨a2, gi g2, k2⟩
    · exact ⟨a3, gi g3, k3⟩
    · exact ⟨a4, gi g4, k4⟩
    · exact ⟨a5, gi g5, k5⟩
    · exact ⟨a6, gi g6, k6⟩
    · exact ⟨a7, gi g7, k7⟩
    · exact ⟨a8, gi g8, k8⟩
    · exact ⟨a9, gi g9, k9⟩
    · exact ⟨a10, gi g10, k10⟩
    · exact ⟨a11, gi g11, k11⟩
    · exact ⟨a12, gi g12, k12⟩
  · unfold updateKinematics getOrigin rotFromNedTo quatOf at hk
    obtain ⟨o, ho, hk⟩ := bind_ok hk
    obtain ⟨R, hR, hk⟩ := bind_ok hk
    obtain ⟨X, hX, ho⟩ := bind_ok ho
    obtain ⟨Y, hY, ho⟩ := bind_ok ho
    obtain ⟨Z, hZ, ho⟩ := bind_ok ho
    obtain ⟨q, hq, hR⟩ := bind_ok hR
    obtain ⟨qr, hqr, hq⟩ := bind_ok hq
    obtain ⟨qi, hqi, hq⟩ := bind_ok hq
    obtain ⟨qj, hqj, hq⟩ := bind_ok hq
    obtain ⟨qk, hqk, hq⟩ := bind_ok hq
    simp only [pure, Except.pure, Except.ok.injEq] at ho hR hq hk
    refine ⟨X, Y, Z, qr, qi, qj, qk, ?_⟩
    simp only [sl]
    refine ⟨gi hX, gi hY, gi hZ, gi hqr, gi hqi, gi hqj, gi hqk, ?_⟩
    subst hk
    have hlen : ∀ n : String, ("NED(" ++ n ++ ")").length = n.length + 5 := by
      intro n
      rw [String.length_append, String.length_append, show "NED(".length = 4 from rfl, show ")".length = 1 from rfl]
      omega
    have h1 : b.name ≠ "NED(" ++ b.name ++ ")" := fun h => by
      have := congrArg String.length h; rw [hlen] at this; omega
    have h2 : "NED(" ++ b.name ++ ")" ≠ "NED" := fun h => by
      have := congrArg String.length h
      rw [hlen] at this
      have : b.name.length + 5 = 3 := this
      omega
    unfold frameOf
    rw [if_neg hn, if_neg h2, find_set', find_set', find_set', if_neg h1, if_pos rfl, if_pos rfl, ← ho, ← hR, ← hq]
    exact ⟨rfl, rfl⟩

/-- The force models of body `b` may use NED, the frames of the bodies given before it (`before`) and
its own frames. -/
def KnownFrames (before : List (MBody K × States (History K))) (b : MBody K) (n : String) : Prop :=
  n = "NED" ∨ (∃ c ∈ before, OwnFrame c.1 n) ∨ OwnFrame b n

/-- C120: when the force models of each body only use its own frames, the ones of the bodies given
before it, and NED, the derivatives of its states, the sum of its forces and its history do not
depend on what was evaluated before: `w` and `w'` are the data left by two different pasts. -/
theorem evaluation_is_a_function_of_the_state_partial (ae : Nat → K → K → Bool) (M : Maps K) (c : Commands K)
    (x : List K) (t : K) (l : List (MBody K × States (History K))) (w w' : World K)
    (hlen : w.dx.length = w'.dx.length) (hb : ∀ b ∈ l, b.1.blocked.bodyIdx = b.1.idx)
    (hf : ∀ before b after, l = before ++ b :: after →
      (∀ f ∈ lookup M.forces b.1.name, UsesOnly (KnownFrames before b.1) f) ∧
      (∀ f ∈ lookup M.controlled b.1.name, UsesOnlyC (KnownFrames before b.1) f)) :
    ERel (fun r r' => r.2 = r'.2 ∧ ∀ b ∈ l, SameBlock b.1.idx r.1.dx r'.1.dx ∧
        r.1.sums.find b.1.name = r'.1.sums.find b.1.name)
      (dxdt ae M c x t l w) (dxdt ae M c x t l w') := by
  have key : ∀ (rest before : List (MBody K × States (History K))) (w w' : World K), l = before ++ rest →
      Agree (fun n => n = "NED" ∨ ∃ c ∈ before, OwnFrame c.1 n) w.kin w'.kin →
      SameAt (fun p => ∃ c ∈ before, ∃ j, j < 13 ∧ p = c.1.idx * 13 + j) w.dx w'.dx →
      (∀ c ∈ before, w.sums.find c.1.name = w'.sums.find c.1.name) →
      ERel (fun r r' => r.2 = r'.2 ∧ ∀ b ∈ l, SameBlock b.1.idx r.1.dx r'.1.dx ∧
        r.1.sums.find b.1.name = r'.1.sums.find b.1.name)
      (dxdt ae M c x t rest w) (dxdt ae M c x t rest w') := by
    intro rest
    induction rest with
    | nil =>
      intro before w w' hl _ hd hs
      rw [List.append_nil] at hl
      subst hl
      exact ⟨rfl, fun b hb => ⟨fun j hj => hd.2 _ ⟨b, hb, j, hj, rfl⟩, hs b hb⟩⟩
    | cons p rest ih =>
      intro before w w' hl hk hd hs
      obtain ⟨b, h⟩ := p
      have hmem : (b, h) ∈ l := by rw [hl]; simp
      obtain ⟨hf1, hf2⟩ := hf before (b, h) rest hl
      have hA : ∀ n, KnownFrames before b n ↔ (fun n => (n = "NED" ∨ ∃ c ∈ before, OwnFrame c.1 n) ∨ OwnFrame b n) n := by
        intro n; simp only [KnownFrames, or_assoc]
      have hA' : KnownFrames before b = fun n => (n = "NED" ∨ ∃ c ∈ before, OwnFrame c.1 n) ∨ OwnFrame b n :=
        funext fun n => propext (hA n)
      rw [hA'] at hf1 hf2
      unfold dxdt
      refine ERel.bind (stepBody_same (hb _ hmem) (fun _ _ => rfl) rfl rfl hf1 hf2 hk hd) ?_
      rintro ⟨w1, h1⟩ ⟨w1', h1'⟩ ⟨g1, g2, g3, F, g4, g5⟩
      simp only at g1 g2 g3 g4 g5
      subst g3
      refine ERel.bind (ih (before ++ [(b, h)]) w1 w1' (by rw [hl]; simp) ?_ ?_ ?_) ?_
      · intro n hn
        refine g1 n ?_
        rcases hn with hn | ⟨c, hc, hn⟩
        · exact Or.inl (Or.inl hn)
        · rcases List.mem_append.mp hc with hc | hc
          · exact Or.inl (Or.inr ⟨c, hc, hn⟩)
          · rw [List.mem_singleton] at hc
            subst hc
            exact Or.inr hn
      · refine ⟨g2.1, fun p hp => g2.2 p ?_⟩
        obtain ⟨c, hc, j, hj, hp⟩ := hp
        rcases List.mem_append.mp hc with hc | hc
        · exact Or.inl ⟨c, hc, j, hj, hp⟩
        · rw [List.mem_singleton] at hc
          subst hc
          exact Or.inr ⟨j, hj, hp⟩
      · intro c hc
        rw [g4, g5, find_set', find_set']
        by_cases hn : c.1.name = b.name
        · rw [if_pos hn, if_pos hn]
        · rw [if_neg hn, if_neg hn]
          rcases List.mem_append.mp hc with hc | hc
          · exact hs c hc
          · rw [List.mem_singleton] at hc
            subst hc
            exact absurd rfl hn
      · rintro ⟨r, hs1⟩ ⟨r', hs1'⟩ ⟨e1, e2⟩
        simp only at e1
        subst e1
        exact ⟨rfl, e2⟩
  refine key l [] w w' rfl ?_ ⟨hlen, fun p hp => ?_⟩ (fun c hc => by simp at hc)
  · intro n hn
    rcases hn with hn | ⟨c, hc, _⟩
    · subst hn; simp [frameOf]
    · simp at hc
  · obtain ⟨c, hc, _⟩ := hp
    simp at hc

/-- State of two bodies at rest at the origin, the second with the quaternion `q`. -/
def twoStates (q : List ℚ) : List ℚ :=
  List.replicate 9 0 ++ [1, 0, 0, 0] ++ List.replicate 9 0 ++ q

/-- A force on body "a" given in the frame of body "b", along its x axis. -/
def towed : Force ℚ := fun _ _ _ => .ok ⟨"b", 0, ![1, 0, 0], 0⟩

/-- The two bodies "a" and "b". -/
def twoEntries : List (Entry ℚ) := [⟨bodyA, [towed], []⟩, ⟨bodyB, [], []⟩]

/-- The frames at the beginning. -/
def world0 : World ℚ := ⟨[("a", ⟨0, 1⟩), ("b", ⟨0, 1⟩)], [], List.replicate 26 0⟩

/-- One evaluation of the two bodies, for a state and the data left by the evaluation before;
forgets the histories. -/
def evalTwo (x : List ℚ) (w : World ℚ) : Except Err (World ℚ) := do
  let r ← dxdt (fun _ a b => decide (a = b)) (mapsOf twoEntries) (fun _ => none) x 0
    [(bodyA, States.newHistories 0), (bodyB, States.newHistories 0)] w
  return r.1

/-- First derivative of the surge velocity of body "a". -/
def surgeOfA (w : Except Err (World ℚ)) : Option ℚ :=
  match w with
  | .ok w => w.dx[3]?
  | .error _ => none

/-- C120 is false when a force on a body is given in the frame of a body that comes after it: the
first evaluation after the second body has turned still uses its former attitude, and evaluating
the same state twice gives two different accelerations. -/
theorem evaluation_is_a_function_of_the_state_refuted :
    surgeOfA (evalTwo (twoStates [0, 0, 0, 1]) world0) = some 1 ∧
    surgeOfA (do evalTwo (twoStates [0, 0, 0, 1]) (← evalTwo (twoStates [0, 0, 0, 1]) world0)) = some (-1) := by
  decide +kernel

/-! ### C121 -/

theorem stepBody_other {ae : Nat → K → K → Bool} {M : Maps K} {c : Commands K} {x : List K} {t : K}
    {w w' : World K} {b : MBody K} {h h' : States (History K)} {i : Nat} {n : String}
    (hb : b.blocked.bodyIdx = b.idx) (hi : b.idx ≠ i) (hn : b.name ≠ n)
    (h : stepBody ae M c x t w b h = .ok (w', h')) : SameBlock i w.dx w'.dx ∧ w'.sums.find n = w.sums.find n ∧
      w'.dx.length = w.dx.length := by
  unfold stepBody at h
  obtain ⟨_, _, h⟩ := bind_ok h
  obtain ⟨_, _, h⟩ := bind_ok h
  obtain ⟨F, _, h⟩ := bind_ok h
  obtain ⟨_, _, h⟩ := bind_ok h
  obtain ⟨d, hd, h⟩ := bind_ok h
  cases h
  exact ⟨stateDerivatives_other hb hi hd, by rw [find_set', if_neg (fun e => hn e.symm)], stateDerivatives_length hd⟩

theorem dxdt_other {ae : Nat → K → K → Bool} {M : Maps K} {c : Commands K} {x : List K} {t : K} {i : Nat} {n : String}
    (l : List (MBody K × States (History K))) : ∀ {w : World K} {r : World K × List (States (History K))},
    (∀ b ∈ l, b.1.blocked.bodyIdx = b.1.idx ∧ b.1.idx ≠ i ∧ b.1.name ≠ n) →
    dxdt ae M c x t l w = .ok r →
    SameBlock i w.dx r.1.dx ∧ r.1.sums.find n = w.sums.find n ∧ r.2.length = l.length ∧
      r.1.dx.length = w.dx.length := by
  induction l with
  | nil => intro w r _ h; cases h; exact ⟨fun _ _ => rfl, rfl, rfl, rfl⟩
  | cons p l ih =>
    intro w r hl h
    obtain ⟨b, hh⟩ := p
    unfold dxdt at h
    obtain ⟨⟨w1, h1⟩, hs, h⟩ := bind_ok h
    obtain ⟨⟨w2, h2⟩, hs2, h⟩ := bind_ok h
    cases h
    have hb := hl (b, hh) List.mem_cons_self
    have e1 := stepBody_other hb.1 hb.2.1 hb.2.2 hs
    have e2 := ih (fun b hb => hl b (List.mem_cons_of_mem _ hb)) hs2
    refine ⟨fun j hj => (e1.1 j hj).trans (e2.1 j hj), e2.2.1.trans e1.2.1, ?_, e2.2.2.2.trans e1.2.2⟩
    simp only at e2
    simp [e2.2.2.1]

theorem dxdt_append {ae : Nat → K → K → Bool} {M : Maps K} {c : Commands K} {x : List K} {t : K}
    (l l' : List (MBody K × States (History K))) : ∀ (w : World K) {r : World K × List (States (History K))},
    dxdt ae M c x t (l ++ l') w = .ok r → ∃ w1 h1 w2 h2, dxdt ae M c x t l w = .ok (w1, h1) ∧
      dxdt ae M c x t l' w1 = .ok (w2, h2) ∧ r = (w2, h1 ++ h2) := by
  induction l with
  | nil => intro w r h; exact ⟨w, [], r.1, r.2, rfl, h, rfl⟩
  | cons p l ih =>
    intro w r h
    obtain ⟨b, hh⟩ := p
    rw [List.cons_append] at h
    unfold dxdt at h
    obtain ⟨⟨w1, h1⟩, hs, h⟩ := bind_ok h
    obtain ⟨⟨w2, h2⟩, hs2, h⟩ := bind_ok h
    cases h
    obtain ⟨a1, a2, a3, a4, g1, g2, g3⟩ := ih w1 hs2
    refine ⟨a1, h1 :: a2, a3, a4, ?_, g2, ?_⟩
    · conv_lhs => unfold dxdt
      simp only [bind, Except.bind, hs, g1, pure, Except.pure]
    · cases g3; rfl

theorem lookup_own {α : Type} (f : Entry K → List α) (l : List (Entry K)) (e : Entry K) (he : e ∈ l)
    (hn : (l.map (fun e => e.body.name)).Nodup) : lookup (forceMap f l) e.body.name = f e := by
  unfold lookup forceMap
  rw [forceMap_find]
  have : l.filter (fun e' => e'.body.name = e.body.name) = [e] := by
    induction l with
    | nil => simp at he
    | cons a l ih =>
      rw [List.map_cons, List.nodup_cons] at hn
      rcases List.mem_cons.mp he with h | h
      · subst h
        rw [List.filter_cons, if_pos (by simp)]
        congr 1
        rw [List.filter_eq_nil_iff]
        intro a ha
        simp only [decide_eq_true_eq]
        intro h
        exact hn.1 (h ▸ List.mem_map_of_mem ha)
      · rw [List.filter_cons, if_neg, ih h hn.2]
        simp only [decide_eq_true_eq]
        intro h'
        exact hn.1 (h' ▸ List.mem_map_of_mem (f := fun e => e.body.name) h)
  rw [this]
  rfl

/-- C121: in two simulations that both contain the body `e` (with the same forces, the same history
and the same thirteen states), together with any other bodies in any states, the derivatives of
its states, its history and the sum of its forces are the same, when its force models use only NED
and its own frames. -/
theorem bodies_do_not_interact (ae : Nat → K → K → Bool) (c : Commands K) (t : K) (e : Entry K) (h : States (History K))
    (x x' : List K) (pre post pre' post' : List (Entry K × States (History K))) (w w' : World K)
    (r r' : World K × List (States (History K)))
    (hnames : ((pre ++ (e, h) :: post).map (fun a => a.1.body.name)).Nodup)
    (hnames' : ((pre' ++ (e, h) :: post').map (fun a => a.1.body.name)).Nodup)
    (hidx : ∀ a ∈ pre ++ post ++ (pre' ++ post'), a.1.body.blocked.bodyIdx = a.1.body.idx ∧ a.1.body.idx ≠ e.body.idx)
    (hb : e.body.blocked.bodyIdx = e.body.idx) (hx : SameBlock e.body.idx x x')
    (hlen : w.dx.length = w'.dx.length)
    (hf : ∀ f ∈ e.forces, UsesOnly (fun n => n = "NED" ∨ OwnFrame e.body n) f)
    (hc : ∀ f ∈ e.controlled, UsesOnlyC (fun n => n = "NED" ∨ OwnFrame e.body n) f)
    (hr : dxdt ae (mapsOf ((pre ++ (e, h) :: post).map Prod.fst)) c x t
      ((pre ++ (e, h) :: post).map fun a => (a.1.body, a.2)) w = .ok r)
    (hr' : dxdt ae (mapsOf ((pre' ++ (e, h) :: post').map Prod.fst)) c x' t
      ((pre' ++ (e, h) :: post').map fun a => (a.1.body, a.2)) w' = .ok r') :
    SameBlock e.body.idx r.1.dx r'.1.dx ∧ r.1.sums.find e.body.name = r'.1.sums.find e.body.name ∧
    r.2[pre.length]? = r'.2[pre'.length]? := by
  have look : ∀ {α : Type} (f : Entry K → List α) (pre post : List (Entry K × States (History K))),
      ((pre ++ (e, h) :: post).map (fun a => a.1.body.name)).Nodup →
      lookup (forceMap f ((pre ++ (e, h) :: post).map Prod.fst)) e.body.name = f e := by
    intro α f pre post hn
    refine lookup_own f _ e (by simp) ?_
    rw [List.map_map]
    exact hn
  rw [List.map_append (f := fun a : Entry K × States (History K) => (a.1.body, a.2)),
    List.map_cons (f := fun a : Entry K × States (History K) => (a.1.body, a.2))] at hr hr'
  obtain ⟨w1, h1, w2, h2, s1, s2, rfl⟩ := dxdt_append _ _ w hr
  obtain ⟨w1', h1', w2', h2', s1', s2', rfl⟩ := dxdt_append _ _ w' hr'
  unfold dxdt at s2 s2'
  obtain ⟨⟨w3, h3⟩, s3, s2⟩ := bind_ok s2
  obtain ⟨⟨w4, h4⟩, s4, s2⟩ := bind_ok s2
  obtain ⟨⟨w3', h3'⟩, s3', s2'⟩ := bind_ok s2'
  obtain ⟨⟨w4', h4'⟩, s4', s2'⟩ := bind_ok s2'
  cases s2
  cases s2'
  have hne : ∀ (pre post : List (Entry K × States (History K))),
      ((pre ++ (e, h) :: post).map (fun a => a.1.body.name)).Nodup → ∀ a ∈ pre ++ post, a.1.body.name ≠ e.body.name := by
    intro pre post hn a ha
    rw [List.map_append, List.map_cons] at hn
    have hn2 := (List.perm_middle.nodup_iff).mp hn
    rw [List.nodup_cons] at hn2
    intro heq
    refine hn2.1 ?_
    rw [← List.map_append, ← heq]
    exact List.mem_map_of_mem (f := fun a : Entry K × States (History K) => a.1.body.name) ha
  have hot : ∀ (l : List (Entry K × States (History K))),
      (∀ a ∈ l, (a ∈ pre ++ post ∨ a ∈ pre' ++ post')) →
      ∀ b ∈ l.map (fun a => (a.1.body, a.2)), b.1.blocked.bodyIdx = b.1.idx ∧ b.1.idx ≠ e.body.idx ∧
        b.1.name ≠ e.body.name := by
    intro l hl b hb
    obtain ⟨a, ha, rfl⟩ := List.mem_map.mp hb
    have h1 := hidx a (List.mem_append.mpr (hl a ha))
    refine ⟨h1.1, h1.2, ?_⟩
    rcases hl a ha with h2 | h2
    · exact hne pre post hnames a h2
    · exact hne pre' post' hnames' a h2
  have o1 := dxdt_other (i := e.body.idx) (n := e.body.name) _
    (hot pre fun a ha => Or.inl (List.mem_append_left _ ha)) s1
  have o1' := dxdt_other (i := e.body.idx) (n := e.body.name) _
    (hot pre' fun a ha => Or.inr (List.mem_append_left _ ha)) s1'
  have o4 := dxdt_other (i := e.body.idx) (n := e.body.name) _
    (hot post fun a ha => Or.inl (List.mem_append_right _ ha)) s4
  have o4' := dxdt_other (i := e.body.idx) (n := e.body.name) _
    (hot post' fun a ha => Or.inr (List.mem_append_right _ ha)) s4'
  simp only [List.length_map] at o1 o1' o4 o4'
  have hk : Agree (fun n => n = "NED") w1.kin w1'.kin := by
    intro n hn; subst hn; simp [frameOf]
  have hd : SameAt (fun _ => False) w1.dx w1'.dx :=
    ⟨by rw [o1.2.2.2, o1'.2.2.2, hlen], fun _ h => h.elim⟩
  have L1 := look Entry.forces pre post hnames
  have L1' := look Entry.forces pre' post' hnames'
  have L2 := look Entry.controlled pre post hnames
  have L2' := look Entry.controlled pre' post' hnames'
  have step := stepBody_same (ae := ae) (M := mapsOf ((pre ++ (e, h) :: post).map Prod.fst))
    (M' := mapsOf ((pre' ++ (e, h) :: post').map Prod.fst)) (c := c) (t := t) (h := h) (A := fun n => n = "NED")
    (S := fun _ => False) hb hx (by simp only [mapsOf, L1, L1']) (by simp only [mapsOf, L2, L2'])
    (by simp only [mapsOf, L1]; exact hf) (by simp only [mapsOf, L2]; exact hc) hk hd
  obtain ⟨_, g2, g3, F, g4, g5⟩ := step.ok s3 s3'
  simp only at g2 g3 g4 g5
  refine ⟨fun j hj => ?_, ?_, ?_⟩
  · rw [← o4.1 j hj, ← o4'.1 j hj]
    exact g2.2 _ (Or.inr ⟨j, hj, rfl⟩)
  · rw [o4.2.1, o4'.2.1, g4, g5, find_set', find_set', if_pos rfl, if_pos rfl]
  · rw [List.getElem?_append_right (by omega), List.getElem?_append_right (by omega), o1.2.2.1, o1'.2.2.1]
    simp [g3]

/-- C121 needs different names: with two bodies of the same name, the first one gets the forces of
the second one. -/
theorem same_name_takes_forces (f1 f2 : List (Force K)) (b1 b2 : MBody K) (c1 c2 : List (Controlled K))
    (h : b1.name = b2.name) :
    lookup (mapsOf [⟨b1, f1, c1⟩, ⟨b2, f2, c2⟩]).forces b1.name = f2 := by
  unfold lookup mapsOf forceMap
  simp only
  rw [forceMap_find]
  simp [h]

/-- The hypotheses of `bodies_do_not_interact` are met by two bodies with a weight: body "a" alone,
and body "a" with another body which is elsewhere. -/
def weight : Force ℚ := fun _ _ _ => .ok ⟨"NED", 0, ![0, 0, 10], 0⟩

example : ∀ f ∈ [weight], UsesOnly (fun n => n = "NED" ∨ OwnFrame bodyA n) f := by
  intro f hf
  rw [List.mem_singleton] at hf
  subst hf
  intro h t k k' _
  exact ⟨rfl, fun tau ht => by cases ht; exact Or.inl rfl⟩

/-- Derivatives with body "a" alone. -/
def aloneA (x : List ℚ) : Except Err (List ℚ) := do
  let r ← dxdt (fun _ a b => decide (a = b)) (mapsOf [⟨bodyA, [weight], []⟩]) (fun _ => none) x 0
    [(bodyA, States.newHistories 0)] ⟨[], [], List.replicate 13 0⟩
  return r.1.dx

example : aloneA ([1, 2, 3, 4, 5, 6, 0, 0, 0, 1, 0, 0, 0]) = .ok [4, 5, 6, 0, 0, 10, -20, 20, 0, 0, 0, 0, 0] := by
  decide +kernel

end Xdyn.Multi

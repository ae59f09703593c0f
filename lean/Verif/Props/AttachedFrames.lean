import Verif.Model.AttachedFrames
import Verif.Props.WaveFeed
import Verif.Props.MultiBody

/-
C214: where a controlled force acts, whatever the frame in which its position is given.
-/

namespace Xdyn.Multi

open Blocked Body Sim WaveGrid

variable {K : Type} [Field K] [LinearOrder K] [IsStrictOrderedRing K]

/-! ### Specification -/

/-- The wrench `w`, given at the point `G` of a body in the axes of the body (origin at `p` in NED, axes `B`), does in every motion of the body (velocity `v` of `G` and rotation `om`, in the axes of the
body) the work of the force `force` applied at the point `P` and of the torque `torque`, all three in NED: `B (v + om × (Bᵀ (P - p) - G))` is the velocity in NED of the point of the body which is at
`P`. -/
def SameEffect (p : Vec3 K) (B : Mat3 K) (G P force torque : Vec3 K) (w : Vec3 K × Vec3 K) : Prop :=
  ∀ v om : Vec3 K, dot w.1 v + dot w.2 om = dot force (B.mulVec (v + cross om (B.transpose.mulVec (P - p) - G))) + dot torque (B.mulVec om)

/-- The frames of the force models have names of their own. -/
structure OwnNames (as : List (Attached K)) (b : MBody K) : Prop where
  nodup : (as.map Attached.name).Nodup
  notNed : ∀ a ∈ as, a.name ≠ "NED"
  notBody : ∀ a ∈ as, a.name ≠ b.name

/-! ### Lemmas -/

omit [LinearOrder K] [IsStrictOrderedRing K] in
theorem attach_other {k : Kin K} {a : Attached K} {n : String} (h : n ≠ a.name) (h0 : a.name ≠ "NED") : frameOf (attach k a) n = frameOf k n := by
  unfold attach
  cases frameOf k a.parent with
  | none => rfl
  | some P => exact (frameOf_set k a.name _ n h0).trans (if_neg h)

omit [LinearOrder K] [IsStrictOrderedRing K] in
theorem attachAll_other {n : String} : ∀ (as : List (Attached K)) (k : Kin K), (∀ a ∈ as, n ≠ a.name ∧ a.name ≠ "NED") → frameOf (attachAll as k) n = frameOf k n
  | [], _, _ => rfl
  | a :: as, k, h => by
    have := attachAll_other as (attach k a) (fun a' ha' => h a' (List.mem_cons_of_mem _ ha'))
    rw [show attachAll (a :: as) k = attachAll as (attach k a) from rfl, this]
    exact attach_other (h a List.mem_cons_self).1 (h a List.mem_cons_self).2

omit [LinearOrder K] [IsStrictOrderedRing K] in
theorem attached_frame {l1 l2 : List (Attached K)} {a : Attached K} {k : Kin K} {P : Frame K} (hn : ((l1 ++ a :: l2).map Attached.name).Nodup) (h0 : ∀ a' ∈ l1 ++ a :: l2, a'.name ≠ "NED")
    (hP : frameOf (attachAll l1 k) a.parent = some P) : frameOf (attachAll (l1 ++ a :: l2) k) a.name = some ⟨P.o + P.R.mulVec a.o, P.R * a.R⟩ := by
  have h1 : attachAll (l1 ++ a :: l2) k = attachAll l2 (attach (attachAll l1 k) a) := by simp [attachAll, List.foldl_append]
  rw [h1, attachAll_other l2]
  · unfold attach
    rw [hP]
    exact (frameOf_set _ a.name _ a.name (h0 a (by simp))).trans (if_pos rfl)
  · intro a' ha'
    rw [List.map_append, List.nodup_append] at hn
    exact ⟨fun e => (List.nodup_cons.mp hn.2.1).1 (by rw [e]; exact List.mem_map_of_mem ha'), h0 a' (by simp [ha'])⟩

omit [IsStrictOrderedRing K] in
theorem get_effect {k : Kin K} {b : MBody K} {n : String} {A B : Frame K} (hB : frameOf k b.name = some B) (hA : frameOf k n = some A) (F : Vec3 K × Vec3 K) :
    ∃ T, k.get b.name n = .ok T ∧ SameEffect B.o B.R b.G A.o (A.R.mulVec F.1) (A.R.mulVec F.2) (controlledWrenchAtG T.R T.o b.G F.1 F.2) := by
  refine ⟨⟨B.R.transpose.mulVec (A.o - B.o), B.R.transpose * A.R⟩, by simp only [Kin.get, hB, hA], fun v om => ?_⟩
  rw [dot_mulVec, dot_mulVec, power_transport]
  simp only [controlledWrenchAtG]
  rw [neg_add_eq_sub]

omit [IsStrictOrderedRing K] in
theorem dxdt_kin (ae : Nat → K → K → Bool) (M : Maps K) (c : Commands K) (x : List K) (t : K) : ∀ (l : List (MBody K × States (History K))) (w : World K) (r : World K × List (States (History K))),
    dxdt ae M c x t l w = .ok r → updateAll (l.map Prod.fst) x w.kin = .ok r.1.kin
  | [], w, r, h => by
    simp only [dxdt, Except.ok.injEq] at h
    subst h
    rfl
  | (b, h0) :: l, w, r, h => by
    unfold dxdt at h
    obtain ⟨⟨w1, h1⟩, e1, h⟩ := bind_ok h
    obtain ⟨⟨w2, hs⟩, e2, h⟩ := bind_ok h
    have ih := dxdt_kin ae M c x t l w1 (w2, hs) e2
    unfold stepBody at e1
    obtain ⟨kin, k1, e1⟩ := bind_ok e1
    obtain ⟨h2, k2, e1⟩ := bind_ok e1
    obtain ⟨F, k3, e1⟩ := bind_ok e1
    obtain ⟨T, k4, e1⟩ := bind_ok e1
    obtain ⟨dx, k5, e1⟩ := bind_ok e1
    simp only [pure, Except.pure, Except.ok.injEq, Prod.mk.injEq] at e1 h
    subst h
    obtain ⟨rfl, rfl⟩ := e1
    simp only [updateAll, List.map_cons, List.foldlM_cons, k1]
    exact ih

/-! ### C214 -/

omit [IsStrictOrderedRing K] in
/-- A controlled force whose position is given in a known frame (placed at `P` in NED: NED itself, a body, `NED(b)`, or the frame of a force model that comes before) does the work of its force
and torque, in the axes of its own frame, applied at the origin of its own frame, both carried by the frame in which the position is given. -/
theorem force_acts_where_declared {l1 l2 : List (Attached K)} {a : Attached K} {b : MBody K} (hn : OwnNames (l1 ++ a :: l2) b) {law : Controlled K} {c : Commands K} {h : States (History K)}
    {k : Kin K} {t : K} {F : Vec3 K × Vec3 K} (hF : law c h k t = .ok F) {B P : Frame K} (hB : frameOf k b.name = some B) (hP : frameOf (attachAll l1 k) a.parent = some P) :
    ∃ w, controlledIn (l1 ++ a :: l2) b a.name law c h k t = .ok w ∧
      SameEffect B.o B.R b.G (P.o + P.R.mulVec a.o) ((P.R * a.R).mulVec F.1) ((P.R * a.R).mulVec F.2) w := by
  have hA := attached_frame hn.nodup hn.notNed hP
  have hB' : frameOf (attachAll (l1 ++ a :: l2) k) b.name = some B := by
    rw [attachAll_other _ _ (fun a' ha' => ⟨fun e => hn.notBody a' ha' e.symm, hn.notNed a' ha'⟩), hB]
  obtain ⟨T, h1, h2⟩ := get_effect hB' hA F
  refine ⟨_, ?_, h2⟩
  simp only [controlledIn, hF, h1, bind, Except.bind, pure, Except.pure]

/-- A frame which is neither NED, nor the one of a body, nor the one of another force model, stops the evaluation with an error. -/
theorem unknown_force_frame_refused {l1 l2 : List (Attached K)} {a : Attached K} {b : MBody K} (hn : OwnNames (l1 ++ a :: l2) b) {law : Controlled K} {c : Commands K} {h : States (History K)}
    {k : Kin K} {t : K} {F : Vec3 K × Vec3 K} (hF : law c h k t = .ok F) (hP : frameOf (attachAll l1 k) a.parent = none) (hk : k.find a.name = none) :
    controlledIn (l1 ++ a :: l2) b a.name law c h k t = .error (.throw "KinematicsException") := by
  have hnd := hn.nodup
  rw [List.map_append, List.nodup_append] at hnd
  have h1 : attachAll (l1 ++ a :: l2) k = attachAll l2 (attachAll l1 k) := by
    simp only [attachAll, List.foldl_append, List.foldl_cons]
    congr 1
    simp only [attachAll] at hP
    simp only [attach, hP]
  have h2 : frameOf (attachAll (l1 ++ a :: l2) k) a.name = none := by
    rw [h1, attachAll_other l2, attachAll_other l1]
    · simp [frameOf, hn.notNed a (by simp), hk]
    · exact fun a' ha' => ⟨fun e => hnd.2.2 a'.name (List.mem_map_of_mem ha') a.name (by simp) e.symm, hn.notNed a' (by simp [ha'])⟩
    · exact fun a' ha' => ⟨fun e => (List.nodup_cons.mp hnd.2.1).1 (by rw [e]; exact List.mem_map_of_mem ha'), hn.notNed a' (by simp [ha'])⟩
  have h3 : (attachAll (l1 ++ a :: l2) k).get b.name a.name = .error (.throw "KinematicsException") := by
    unfold Kin.get
    rw [h2]
    cases frameOf (attachAll (l1 ++ a :: l2) k) b.name <;> rfl
  simp only [controlledIn, hF, h3, bind, Except.bind]

/-- When the derivatives of a list of bodies are evaluated, the forces of a body are evaluated with the frames of the bodies that come before it and its own as the states say, and those of the bodies that
come after it as the previous evaluation left them. -/
theorem frames_of_an_evaluation (ae : Nat → K → K → Bool) (M : Maps K) (c : Commands K) (x : List K) (t : K) : ∀ (pre : List (MBody K × States (History K))) (b : MBody K) (h : States (History K))
    (post : List (MBody K × States (History K))) (w : World K) (r : World K × List (States (History K))), dxdt ae M c x t (pre ++ (b, h) :: post) w = .ok r →
    ∃ k h' F, updateAll (pre.map Prod.fst ++ [b]) x w.kin = .ok k ∧ updateBodyStates ae b h x t = .ok h' ∧
      sumOfForces c b (lookup M.forces b.name) (lookup M.controlled b.name) h' k x t = .ok F
  | [], b, h0, post, w, r, h => by
    rw [List.nil_append] at h
    unfold dxdt at h
    obtain ⟨⟨w1, h1⟩, e1, -⟩ := bind_ok h
    unfold stepBody at e1
    obtain ⟨kin, k1, e1⟩ := bind_ok e1
    obtain ⟨h2, k2, e1⟩ := bind_ok e1
    obtain ⟨F, k3, e1⟩ := bind_ok e1
    refine ⟨kin, h2, F, ?_, k2, k3⟩
    simp only [updateAll, List.map_nil, List.nil_append, List.foldlM_cons, List.foldlM_nil, k1, bind, Except.bind, pure, Except.pure]
  | (b', h') :: pre, b, h0, post, w, r, h => by
    rw [List.cons_append] at h
    unfold dxdt at h
    obtain ⟨⟨w1, h1⟩, e1, h⟩ := bind_ok h
    obtain ⟨⟨w2, hs⟩, e2, h⟩ := bind_ok h
    obtain ⟨k, hh, F, i1, i2, i3⟩ := frames_of_an_evaluation ae M c x t pre b h0 post w1 _ e2
    refine ⟨k, hh, F, ?_, i2, i3⟩
    unfold stepBody at e1
    obtain ⟨kin, k1, e1⟩ := bind_ok e1
    obtain ⟨h2, k2, e1⟩ := bind_ok e1
    obtain ⟨F', k3, e1⟩ := bind_ok e1
    obtain ⟨T, k4, e1⟩ := bind_ok e1
    obtain ⟨dx, k5, e1⟩ := bind_ok e1
    simp only [pure, Except.pure, Except.ok.injEq, Prod.mk.injEq] at e1
    obtain ⟨rfl, rfl⟩ := e1
    simp only [updateAll, List.map_cons, List.cons_append, List.foldlM_cons, k1]
    exact i1

section evaluation

variable {pre : List (MBody K)} {b : MBody K} {x : List K} {k0 k : Kin K} (hk : updateAll (pre ++ [b]) x k0 = .ok k) (hs : ∀ b' ∈ pre ++ [b], ∃ p q, Placed x b'.idx p q) (hN : PlainNames (pre ++ [b]))
  {p : K × K × K} {q : Quat K} (hp : Placed x b.idx p q) {a : Attached K} (hn : OwnNames [a] b) {law : Controlled K} {c : Commands K} {h : States (History K)} {t : K} {F : Vec3 K × Vec3 K}
  (hF : law c h k t = .ok F)

include hk hs hN hp hn hF

omit [LinearOrder K] [IsStrictOrderedRing K] in
theorem updated_frame {b' : MBody K} (hb' : b' ∈ pre ++ [b]) {p' : K × K × K} {q' : Quat K} (hp' : Placed x b'.idx p' q') :
    frameOf k b'.name = some ⟨![p'.1, p'.2.1, p'.2.2], q'.matrix⟩ ∧ frameOf k ("NED(" ++ b'.name ++ ")") = some ⟨![p'.1, p'.2.1, p'.2.2], 1⟩ := by
  obtain ⟨k', h1, h2, h3⟩ := updateAll_body hp' (pre ++ [b]) k0 hb' hs hN
  rw [hk] at h1
  cases h1
  exact ⟨h2, h3⟩

omit [IsStrictOrderedRing K] in
/-- The position is given in the frame of the body, or in the one of a body that comes before it in the file: the point and the axes follow that body. -/
theorem force_carried_by_body {b' : MBody K} (hb' : b' ∈ pre ++ [b]) {p' : K × K × K} {q' : Quat K} (hp' : Placed x b'.idx p' q') (ha : a.parent = b'.name) :
    ∃ w, controlledIn [a] b a.name law c h k t = .ok w ∧ SameEffect ![p.1, p.2.1, p.2.2] q.matrix b.G (![p'.1, p'.2.1, p'.2.2] + q'.matrix.mulVec a.o)
      (q'.matrix.mulVec (a.R.mulVec F.1)) (q'.matrix.mulVec (a.R.mulVec F.2)) w := by
  obtain ⟨w, h1, h2⟩ := force_acts_where_declared (l1 := []) (l2 := []) hn hF (updated_frame hk hs hN hp hn hF (by simp) hp).1 (P := ⟨![p'.1, p'.2.1, p'.2.2], q'.matrix⟩) (by
    rw [ha]
    exact (updated_frame hk hs hN hp hn hF hb' hp').1)
  refine ⟨w, h1, ?_⟩
  simpa only [Matrix.mulVec_mulVec] using h2

omit [IsStrictOrderedRing K] in
/-- The position is given in NED: the point of application and the axes of the force do not move, whatever the motion of the body. -/
theorem force_fixed_in_ned (ha : a.parent = "NED") :
    ∃ w, controlledIn [a] b a.name law c h k t = .ok w ∧ SameEffect ![p.1, p.2.1, p.2.2] q.matrix b.G a.o (a.R.mulVec F.1) (a.R.mulVec F.2) w := by
  obtain ⟨w, h1, h2⟩ := force_acts_where_declared (l1 := []) (l2 := []) hn hF (updated_frame hk hs hN hp hn hF (by simp) hp).1 (P := ⟨0, 1⟩) (by
    rw [ha]
    rfl)
  refine ⟨w, h1, ?_⟩
  simpa using h2

omit [IsStrictOrderedRing K] in
/-- The position is given in `NED(b')`: the point follows the body `b'`, the axes do not turn. -/
theorem force_follows_body {b' : MBody K} (hb' : b' ∈ pre ++ [b]) {p' : K × K × K} {q' : Quat K} (hp' : Placed x b'.idx p' q') (ha : a.parent = "NED(" ++ b'.name ++ ")") :
    ∃ w, controlledIn [a] b a.name law c h k t = .ok w ∧ SameEffect ![p.1, p.2.1, p.2.2] q.matrix b.G (![p'.1, p'.2.1, p'.2.2] + a.o) (a.R.mulVec F.1) (a.R.mulVec F.2) w := by
  obtain ⟨w, h1, h2⟩ := force_acts_where_declared (l1 := []) (l2 := []) hn hF (updated_frame hk hs hN hp hn hF (by simp) hp).1 (P := ⟨![p'.1, p'.2.1, p'.2.2], 1⟩) (by
    rw [ha]
    exact (updated_frame hk hs hN hp hn hF hb' hp').2)
  refine ⟨w, h1, ?_⟩
  simpa using h2

end evaluation

/-- The position is given in the frame of a body that comes after: the point and the axes are those of that body in the previous evaluation, and not as the states say. -/
theorem force_carried_by_later_body {pre : List (MBody K)} {b : MBody K} {x : List K} {k0 k : Kin K} (hk : updateAll (pre ++ [b]) x k0 = .ok k)
    (hs : ∀ b' ∈ pre ++ [b], ∃ p q, Placed x b'.idx p q) (hN : PlainNames (pre ++ [b])) {p : K × K × K} {q : Quat K} (hp : Placed x b.idx p q) {a : Attached K} (hn : OwnNames [a] b)
    {law : Controlled K} {c : Commands K} {h : States (History K)} {t : K} {F : Vec3 K × Vec3 K} (hF : law c h k t = .ok F) {later : MBody K}
    (hl : ∀ b' ∈ pre ++ [b], later.name ≠ b'.name ∧ later.name ≠ "NED(" ++ b'.name ++ ")") {P : Frame K} (hP : frameOf k0 later.name = some P) (ha : a.parent = later.name) :
    ∃ w, controlledIn [a] b a.name law c h k t = .ok w ∧ SameEffect ![p.1, p.2.1, p.2.2] q.matrix b.G (P.o + P.R.mulVec a.o) ((P.R * a.R).mulVec F.1) ((P.R * a.R).mulVec F.2) w := by
  obtain ⟨k', h1, h2⟩ := updateAll_other later.name (pre ++ [b]) k0 hs hN.notNed hl
  rw [hk] at h1
  cases h1
  refine force_acts_where_declared (l1 := []) (l2 := []) hn hF (updated_frame hk hs hN hp hn hF (by simp) hp).1 (P := P) ?_
  rw [ha]
  exact h2.trans hP

/-! ### Examples -/

/-- A tow line between the tug and the barge: a force of 2 along the axis x of a frame at the stern of the other body. -/
def towFrame (parent : String) : Attached ℚ := ⟨"tow", parent, ![0, 0, 3], 1⟩

def tow (parent : String) (b : MBody ℚ) : Controlled ℚ := controlledIn [towFrame parent] b "tow" (fun _ _ _ _ => .ok (![2, 0, 0], 0))

def emptyStates : States (History ℚ) :=
  let h : History ℚ := ⟨0, [], 0⟩
  ⟨h, h, h, h, h, h, h, h, h, h, h, h, h⟩

/-- The wrench of the tug when the states `x` are evaluated after the evaluation that left the frames `k` (`frames_of_an_evaluation`: the tug comes first). -/
def towForce (parent : String) (k : Kin ℚ) (x : List ℚ) : Except Err (Vec3 ℚ × Vec3 ℚ) := do
  let k ← updateAll [tug] x k
  sumOfForces (fun _ => none) tug [] [tow parent tug] emptyStates k x 0

/-- The barge turned by 180 degrees - 2 atan(3/4) about the vertical. -/
def turnedBarge : List ℚ := [100, 20, 0, 1, 0, 0, 0, 0, 0, 1, 0, 0, 0, -5, 7, 1, 2, 0, 0, 0, 0, 0, 3 / 5, 0, 0, 4 / 5]

/-- The barge not turned. -/
def straightBarge : List ℚ := [100, 20, 0, 1, 0, 0, 0, 0, 0, 1, 0, 0, 0, -5, 7, 1, 2, 0, 0, 0, 0, 0, 1, 0, 0, 0]

local macro "wrench" : tactic => `(tactic| (
  refine congrArg Except.ok (Prod.ext ?_ ?_) <;> funext i <;> fin_cases i <;>
    simp [controlledWrenchAtG, Quat.matrix, Matrix.vecHead, Matrix.vecTail, cross, Matrix.mulVec, dotProduct, Fin.sum_univ_three, Matrix.mul_apply, Matrix.transpose_apply, Matrix.one_apply] <;> norm_num))

theorem tow_value {parent : String} {k k' : Kin ℚ} {x : List ℚ} (h : updateAll [tug] x k = .ok k') {A B : Frame ℚ} (hA : frameOf k' parent = some A) (hB : frameOf k' "tug" = some B) (hx : uvwpqr x 0 = .ok (![1, 0, 0], ![0, 0, 0])) :
    towForce parent k x = .ok (0 + controlledWrenchAtG (B.R.transpose * (A.R * 1)) (B.R.transpose.mulVec (A.o + A.R.mulVec ![0, 0, 3] - B.o)) 0 ![2, 0, 0] 0) := by
  have h1 : ((attachAll [towFrame parent] k').get "tug" "tow") = .ok ⟨B.R.transpose.mulVec (A.o + A.R.mulVec ![0, 0, 3] - B.o), B.R.transpose * (A.R * 1)⟩ := by
    have e1 : frameOf (attachAll [towFrame parent] k') "tow" = some ⟨A.o + A.R.mulVec ![0, 0, 3], A.R * 1⟩ :=
      attached_frame (l1 := []) (l2 := []) (a := towFrame parent) (by simp) (by simp [towFrame]) hA
    have e2 : frameOf (attachAll [towFrame parent] k') "tug" = some B := by
      rw [attachAll_other _ _ (by simp [towFrame]), hB]
    simp only [Kin.get, e1, e2]
  simp only [towForce, h, bind, Except.bind]
  simp only [sumOfForces, tug, hx, List.foldlM_cons, List.foldlM_nil, addControlled, tow, controlledIn, h1, bind, Except.bind, pure, Except.pure]
  rfl

/-- In the frame of the tug, in NED and in an unknown frame. -/
example : towForce "tug" [] twoBodies = .ok (![2, 0, 0], ![0, 6, 0]) := by
  rw [tow_value rfl rfl rfl rfl]
  wrench

example : towForce "NED" [] straightBarge = .ok (![2, 0, 0], ![0, 6, 40]) := by
  rw [tow_value rfl rfl rfl rfl]
  wrench

example : towForce "NED" [] twoBodies = .ok (![-14 / 25, -48 / 25, 0], ![144 / 25, -42 / 25, 40]) := by
  rw [tow_value rfl rfl rfl rfl]
  wrench

example : towForce "rig" [] twoBodies = .error (.throw "KinematicsException") := by decide +kernel

/-- The frames left by an evaluation with the barge straight, and by an evaluation with the barge turned. -/
def straightFrames : Kin ℚ := [("NED(barge)", ⟨![-5, 7, 1], 1⟩), ("barge", ⟨![-5, 7, 1], 1⟩)]

def turnedFrames : Kin ℚ := [("NED(barge)", ⟨![-5, 7, 1], 1⟩), ("barge", ⟨![-5, 7, 1], (⟨3 / 5, 0, 0, 4 / 5⟩ : Quat ℚ).matrix⟩)]

/-- C214 (refutation): in the same states, the force that the tug takes from a line fixed to the barge depends on where the barge was in the previous evaluation: with the barge straight, then turned, the
second evaluation still gives the force along the axis of the straight barge; the next evaluation in the same states gives another one. -/
theorem force_of_previous_evaluation :
    towForce "barge" straightFrames turnedBarge = .ok (![2, 0, 0], ![0, 8, 26]) ∧
    towForce "barge" turnedFrames turnedBarge = .ok (![-14 / 25, 48 / 25, 0], ![-192 / 25, -56 / 25, -5222 / 25]) := by
  constructor
  · rw [tow_value rfl rfl rfl rfl]
    wrench
  · rw [tow_value rfl rfl rfl rfl]
    wrench

end Xdyn.Multi

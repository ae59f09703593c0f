import Verif.Model.Grpc
import Verif.Spec.State
import Verif.Lemmas.HistoryDates
import Verif.Lemmas.Waves
import Verif.Lemmas.Hdb
import Mathlib.Algebra.Order.Field.Rat

/-!
Properties C123 to C127: exchanges with distant wave models and distant force models.
-/

namespace Xdyn.Grpc

open Spec Multi

variable {K : Type}

/-! ### C124: statuses -/

/-- **C124 (partial)** A call which ends with one of the error codes of gRPC throws, whatever the response; a call that succeeds
gives the response. -/
theorem failed_call_throws_partial {Req Resp : Type} (method : Req → Int × Resp) (request : Req) :
    ((method request).1 = 0 → call method request = .ok (method request).2) ∧
    (∀ c : Code, c ≠ .OK → (method request).1 = c.value → ∃ what, call method request = .error (.throw what)) := by
  constructor
  · intro h
    simp [call, throwIfInvalid, h, Code.value, bind, Except.bind, pure, Except.pure]
  · intro c hc h
    refine ⟨"GRPCError", ?_⟩
    unfold call
    simp only [h]
    cases c <;> first | exact absurd rfl hc | rfl

/-- **C124, refuted** A status which is not one of the codes known when xdyn was written is not OK and is accepted. -/
theorem failed_call_throws_refuted : ∃ code : Int, code ≠ 0 ∧ throwIfInvalid code = .ok () := ⟨17, by decide, by decide⟩

/-! ### C123: spectra of a distant wave model -/

/-- **C123 (true part)** Without phases the spectra are the ones that were sent. -/
theorem spectra_received_partial (s : WaveServer K) (x y t : K) {response : List (Spectrum K)} (h : s.spectrum (x, y, t) = (0, response))
    (hp : ∀ sp ∈ response, sp.phase = []) : directionalSpectra s x y t = .ok response := by
  have hc : call s.spectrum (x, y, t) = .ok response := by
    have := (failed_call_throws_partial s.spectrum (x, y, t)).1 (by rw [h])
    rw [this, h]
  unfold directionalSpectra
  rw [hc]
  simp only [bind, Except.bind]
  have := Waves.mapM_ok (f := readSpectrum response) (g := id) response (fun sp hsp => by
    obtain ⟨a, b, c, d, e, f⟩ := sp
    have : f = [] := hp _ hsp
    subst this
    rfl)
  simpa using this

theorem phaseLoop_spec (response : List (Spectrum K)) (P : Nat) (hP : ∀ sp ∈ response, sp.phase.length = P) :
    ∀ (fuel i : Nat) (target : List (List K)), target.length = P → i ≤ P → i ≤ response.length → response.length + 1 - i ≤ fuel →
      phaseLoop response fuel i target =
        if P < response.length then
          .ok (target.take i ++ ((List.range' i (P - i)).map (fun j => ((response[j]?.bind (fun sp => sp.phase[j]?)).getD []))))
        else .error .ub := by
  intro fuel
  induction fuel with
  | zero => intro i target _ _ _ hf; omega
  | succ fuel ih =>
    intro i target ht hi hir hf
    unfold phaseLoop
    by_cases hlt : i < response.length
    · have hg : getUB response i = .ok response[i] := by unfold getUB; rw [List.getElem?_eq_getElem hlt]
      have hlen := hP _ (List.getElem_mem hlt)
      simp only [hg, bind, Except.bind, pure, Except.pure, hlen]
      by_cases hip : i < P
      · rw [if_pos hip]
        have hg2 : getUB response[i].phase i = .ok (response[i].phase[i]'(by omega)) := by unfold getUB; rw [List.getElem?_eq_getElem (by omega)]
        have hs : setUB target i (response[i].phase[i]'(by omega)) = .ok (target.set i (response[i].phase[i]'(by omega))) := by
          unfold setUB; rw [if_pos (by omega)]
        simp only [hg2, hs]
        rw [ih (i + 1) _ (by simpa using ht) (by omega) (by omega) (by omega)]
        by_cases hPN : P < response.length
        · rw [if_pos hPN, if_pos hPN]
          congr 1
          rw [show P - i = (P - (i + 1)) + 1 by omega, List.range'_succ, List.map_cons, List.getElem?_eq_getElem hlt, Option.bind_some,
            List.getElem?_eq_getElem (by omega), Option.getD_some, List.take_add_one, List.getElem?_set_self (by omega), List.take_set_of_le (by omega)]
          simp
        · rw [if_neg hPN, if_neg hPN]
      · rw [if_neg hip]
        have : i = P := by omega
        subst this
        rw [if_pos hlt]
        simp [← ht]
    · have hg : getUB response i = .error .ub := by unfold getUB; rw [List.getElem?_eq_none (by omega)]
      rw [hg]
      simp only [bind, Except.bind]
      rw [if_neg (by omega)]

/-- What is read when the spectra have `P` rows of phases each: as soon as there are as many rows as spectra (in particular for a single spectrum) the
behaviour is undefined; otherwise all the spectra get the same phases, row `j` being row `j` of spectrum `j`. -/
theorem spectra_with_phases (s : WaveServer K) (x y t : K) {response : List (Spectrum K)} (h : s.spectrum (x, y, t) = (0, response))
    (hne : response ≠ []) {P : Nat} (hP0 : 0 < P) (hP : ∀ sp ∈ response, sp.phase.length = P) :
    directionalSpectra s x y t = if P < response.length then
        .ok (response.map (fun sp => { sp with phase := (List.range P).map (fun j => ((response[j]?.bind (fun sp => sp.phase[j]?)).getD [])) }))
      else .error .ub := by
  have hc : call s.spectrum (x, y, t) = .ok response := by
    have := (failed_call_throws_partial s.spectrum (x, y, t)).1 (by rw [h])
    rw [this, h]
  have hread : ∀ sp ∈ response, readSpectrum response sp = if P < response.length then
      .ok { sp with phase := (List.range P).map (fun j => ((response[j]?.bind (fun sp => sp.phase[j]?)).getD [])) } else .error .ub := by
    intro sp hsp
    unfold readSpectrum
    rw [if_pos (by rw [hP sp hsp]; omega), hP sp hsp,
      phaseLoop_spec response P hP (response.length + 1) 0 (List.replicate P []) (by simp) (by omega) (by omega) (by omega)]
    by_cases hPN : P < response.length
    · simp [hPN, bind, Except.bind, pure, Except.pure, List.range_eq_range']
    · simp [hPN, bind, Except.bind]
  unfold directionalSpectra
  rw [hc]
  simp only [bind, Except.bind]
  by_cases hPN : P < response.length
  · rw [if_pos hPN]
    exact Waves.mapM_ok _ (fun sp hsp => by rw [hread sp hsp, if_pos hPN])
  · rw [if_neg hPN]
    obtain ⟨sp, l, rfl⟩ := List.exists_cons_of_ne_nil hne
    rw [List.mapM_cons, hread sp (by simp), if_neg hPN]
    rfl

/-- **C123, refuted** The phases of a single spectrum are never received: the behaviour is undefined. -/
theorem single_spectrum_with_phases_refuted (s : WaveServer K) (x y t : K) {sp : Spectrum K} (h : s.spectrum (x, y, t) = (0, [sp])) (hp : sp.phase ≠ []) :
    directionalSpectra s x y t = .error .ub := by
  have := spectra_with_phases s x y t h (by simp) (P := sp.phase.length) (List.length_pos_iff.mpr hp) (by simp)
  rw [this, if_neg]
  simp
  exact hp

/-- **C123, refuted** With two spectra, the phases of the second one are replaced with the phases of the first one. -/
theorem second_spectrum_phases_refuted :
    let sp (a : ℚ) : Spectrum ℚ := ⟨[1], [1], [1], [0], [1], [[a]]⟩
    directionalSpectra ⟨fun _ => (0, []), fun _ => (0, []), fun _ => (0, [], [], []), fun _ => (0, [sp 1, sp 2])⟩ 0 0 0 = .ok [sp 1, sp 1] := by
  decide +kernel

/-! ### C128: elevations, pressures and velocities of a distant wave model -/

/-- **C128** The elevations and the dynamic pressures of a distant wave model are its answers to requests with the points and the date. -/
theorem distant_elevations_and_pressures (s : WaveServer K) (x y z eta : List K) (t rho g : K) :
    (∀ r, s.elevations ⟨t, x, y, []⟩ = (0, r) → (WaveModel.ofServer s).height x y t = .ok r) ∧
    (∀ r, s.dynamicPressures ⟨t, x, y, z⟩ = (0, r) → (WaveModel.ofServer s).pressure rho g x y z eta t = .ok r) := by
  constructor
  · intro r h
    have := (failed_call_throws_partial s.elevations ⟨t, x, y, []⟩).1 (by rw [h])
    rw [h] at this
    exact this
  · intro r h
    have := (failed_call_throws_partial s.dynamicPressures ⟨t, x, y, z⟩).1 (by rw [h])
    rw [h] at this
    exact this

/-- **C128 (partial)** The orbital velocity at one point is the answer of the distant wave model. -/
theorem distant_velocity_partial (s : WaveServer K) (x y z t g a b c : K) (eta : List K) (h : s.orbitalVelocities ⟨t, [x], [y], [z]⟩ = (0, [a], [b], [c])) :
    (WaveModel.ofServer s).velocity g [x] [y] [z] t eta = .ok [(a, b, c)] := by
  have := (failed_call_throws_partial s.orbitalVelocities ⟨t, [x], [y], [z]⟩).1 (by rw [h])
  rw [h] at this
  show orbitalVelocities s [x] [y] [z] t = _
  unfold orbitalVelocities
  rw [this]
  rfl

/-- **C128, refuted** A distant wave model which answers several velocities is rejected. -/
theorem distant_velocities_rejected_refuted (s : WaveServer K) (x y z : List K) (t g : K) (eta : List K) {vx vy vz : List K}
    (h : s.orbitalVelocities ⟨t, x, y, z⟩ = (0, vx, vy, vz)) (hl : vx.length ≠ 1) :
    ∃ what, (WaveModel.ofServer s).velocity g x y z t eta = .error (.throw what) := by
  have := (failed_call_throws_partial s.orbitalVelocities ⟨t, x, y, z⟩).1 (by rw [h])
  rw [h] at this
  refine ⟨"GRPCError", ?_⟩
  show orbitalVelocities s x y z t = _
  unfold orbitalVelocities
  rw [this]
  simp only [bind, Except.bind]
  rw [if_pos hl]
  rfl

/-- **C128** The checks on the sizes: as many abscissae as ordinates. -/
theorem points_are_checked (w : WaveModel K) (x y : List K) (t : K) (h : x.length ≠ y.length) : ∃ what, w.checkedHeight x y t = .error (.throw what) := by
  refine ⟨"InternalErrorException", ?_⟩
  unfold WaveModel.checkedHeight
  rw [if_pos h]
  rfl

/-! ### C125: waves sent to a distant force model -/

theorem rethrow_ok {α : Type} {p : Except Err α} {a : α} (h : rethrow p = .ok a) : p = .ok a := by
  match p, h with
  | .ok b, h => exact h
  | .error (.throw _), h => cases h
  | .error .ub, h => cases h

theorem checkedHeight_ok {w : WaveModel K} {x y : List K} {t : K} {z : List K} (h : w.checkedHeight x y t = .ok z) :
    x.length = y.length ∧ w.height x y t = .ok z := by
  unfold WaveModel.checkedHeight at h
  split at h
  · cases h
  · rename_i hl; exact ⟨not_not.mp hl, h⟩

/-- What the message contains, whatever the dates asked for by the distant model. -/
theorem wave_information_content {w : WaveModel K} {rho g t : K} {r : Required K} {info : WaveInfo K}
    (h : fromWaveInformation (some w) rho g (toWaveRequest r) t = .ok info) :
    (info.elevations.t = t ∧ info.elevations.x = r.elevations.x ∧ info.elevations.y = r.elevations.y ∧
      w.height r.elevations.x r.elevations.y r.elevations.t = .ok info.elevations.z) ∧
    (info.velocities = ⟨t, r.velocities.x, r.velocities.y, r.velocities.z⟩ ∧
      ∃ eta vs, w.height r.velocities.x r.velocities.y r.velocities.t = .ok eta ∧
        w.velocity g r.velocities.x r.velocities.y r.velocities.z t eta = .ok vs ∧
        info.vx = vs.map (fun c => c.1) ∧ info.vy = vs.map (fun c => c.2.1) ∧ info.vz = vs.map (fun c => c.2.2)) ∧
    (r.pressures.x = [] ∧ r.pressures.y = [] ∧ info.pressures = ⟨t, [], [], []⟩ ∧
      ∃ eta, w.height [] [] r.pressures.t = .ok eta ∧ w.pressure rho g [] [] [] eta t = .ok info.pdyn) ∧
    (if r.needSpectrum then ∃ l, w.spectra r.spectrum.1 r.spectrum.2.1 r.spectrum.2.2 = .ok l ∧ info.spectrum = some l else info.spectrum = none) := by
  unfold fromWaveInformation at h
  simp only at h
  obtain ⟨sp, hsp, h⟩ := bind_ok h
  obtain ⟨v, hv, h⟩ := bind_ok h
  obtain ⟨z, hz, h⟩ := bind_ok h
  obtain ⟨pd, hpd, h⟩ := bind_ok h
  simp only [pure, Except.pure, Except.ok.injEq] at h
  subst h
  obtain ⟨eta, he, hv⟩ := bind_ok (rethrow_ok hv)
  have he := checkedHeight_ok (rethrow_ok he)
  have hz := checkedHeight_ok (rethrow_ok hz)
  obtain ⟨eta', he', hpd⟩ := bind_ok (rethrow_ok hpd)
  have he' := checkedHeight_ok he'
  have hv' : w.velocity g r.velocities.x r.velocities.y r.velocities.z t eta = .ok v := by
    unfold WaveModel.checkedVelocity at hv
    split at hv
    · cases hv
    · exact hv
  have hx : r.pressures.x = [] := by
    unfold WaveModel.checkedPressure at hpd
    split at hpd
    · cases hpd
    · split at hpd
      · cases hpd
      · rename_i h2
        exact List.length_eq_zero_iff.mp (not_not.mp h2)
  have hy : r.pressures.y = [] := by
    have : r.pressures.x.length = r.pressures.y.length := he'.1
    rw [hx] at this
    exact List.length_eq_zero_iff.mp this.symm
  have hpd' : w.pressure rho g [] [] [] eta' t = .ok pd := by
    unfold WaveModel.checkedPressure at hpd
    split at hpd
    · cases hpd
    · split at hpd
      · cases hpd
      · split at hpd
        · cases hpd
        · simpa [toWaveRequest, hx, hy] using hpd
  refine ⟨⟨rfl, rfl, rfl, hz.2⟩, ⟨rfl, eta, v, he.2, hv', rfl, rfl, rfl⟩, ⟨hx, hy, by simp [toWaveRequest, hx, hy], eta', ?_, hpd'⟩, ?_⟩
  · have := he'.2
    simpa [toWaveRequest, hx, hy] using this
  · unfold spectraIfNeeded at hsp
    change (if r.needSpectrum = true then _ else _) = _ at hsp
    split at hsp
    · rename_i hn
      rw [if_pos hn]
      obtain ⟨l, hl, hsp⟩ := bind_ok hsp
      simp only [pure, Except.pure, Except.ok.injEq] at hsp
      exact ⟨l, rethrow_ok hl, hsp.symm⟩
    · rename_i hn
      rw [if_neg hn]
      simp only [Except.ok.injEq] at hsp
      exact hsp.symm

/-- **C125 (partial)** When the distant force model asks for the date of the computation, the elevations and the velocities it gets are the ones of the wave model
of the simulation, at the points and at the date of the message. -/
theorem wave_information_partial {w : WaveModel K} {rho g t : K} {r : Required K} {info : WaveInfo K}
    (h : fromWaveInformation (some w) rho g (toWaveRequest r) t = .ok info) (hte : r.elevations.t = t) (htv : r.velocities.t = t) :
    (info.elevations.x = r.elevations.x ∧ info.elevations.y = r.elevations.y ∧
      w.height info.elevations.x info.elevations.y info.elevations.t = .ok info.elevations.z) ∧
    (info.velocities.x = r.velocities.x ∧ info.velocities.y = r.velocities.y ∧ info.velocities.z = r.velocities.z ∧
      ∃ eta vs, w.height info.velocities.x info.velocities.y info.velocities.t = .ok eta ∧
        w.velocity g info.velocities.x info.velocities.y info.velocities.z info.velocities.t eta = .ok vs ∧
        info.vx = vs.map (fun c => c.1) ∧ info.vy = vs.map (fun c => c.2.1) ∧ info.vz = vs.map (fun c => c.2.2)) := by
  obtain ⟨⟨a1, a2, a3, a4⟩, ⟨b1, eta, vs, b2, b3, b4⟩, -, -⟩ := wave_information_content h
  rw [b1, a1, a2, a3]
  refine ⟨⟨rfl, rfl, hte ▸ a4⟩, rfl, rfl, rfl, eta, vs, ?_, b3, b4⟩
  rw [← htv]; exact b2

/-- The message is sent as soon as the wave model answers (and no pressure is asked for). -/
theorem wave_information_sent {w : WaveModel K} {rho g t : K} {r : Required K} (hex : r.elevations.x.length = r.elevations.y.length)
    (hvx : r.velocities.x.length = r.velocities.y.length) (hvz : r.velocities.x.length = r.velocities.z.length)
    (hw : ∀ x y t, x.length = y.length → ∃ z, w.height x y t = .ok z ∧ z.length = x.length)
    (hp : ∃ p, w.pressure rho g [] [] [] [] t = .ok p) (hv : ∀ x y z eta, ∃ v, w.velocity g x y z t eta = .ok v)
    (hs : ∃ l, w.spectra r.spectrum.1 r.spectrum.2.1 r.spectrum.2.2 = .ok l)
    (hpx : r.pressures.x = []) (hpy : r.pressures.y = []) :
    ∃ info, fromWaveInformation (some w) rho g (toWaveRequest r) t = .ok info := by
  obtain ⟨z, hz, -⟩ := hw _ _ r.elevations.t hex
  obtain ⟨eta, he, hel⟩ := hw _ _ r.velocities.t hvx
  obtain ⟨e0, h0, h0l⟩ := hw [] [] r.pressures.t rfl
  have : e0 = [] := List.length_eq_zero_iff.mp h0l
  subst this
  obtain ⟨p, hp⟩ := hp
  obtain ⟨v, hv⟩ := hv r.velocities.x r.velocities.y r.velocities.z eta
  obtain ⟨l, hs⟩ := hs
  unfold fromWaveInformation
  simp only [toWaveRequest, spectraIfNeeded, WaveModel.checkedHeight, WaveModel.checkedPressure, WaveModel.checkedVelocity, hpx, hpy, hex, hvx, ne_eq, not_true_eq_false,
    if_false, false_or, hz, he, h0, bind, Except.bind, rethrow, List.length_nil, hp, hs]
  have hne : ¬(¬r.velocities.y.length = r.velocities.z.length ∨ ¬r.velocities.y.length = eta.length) := by
    rw [hel, ← hvz, ← hvx]; simp
  cases r.needSpectrum
  · simp only [Bool.false_eq_true, if_false, if_neg hne, hv]
    exact ⟨_, rfl⟩
  · simp only [if_true, if_neg hne, hv]
    exact ⟨_, rfl⟩

/-- **C125, refuted** The date of the message is not the date of the elevations when the distant model asks for another date. -/
theorem wave_information_date_refuted :
    ∃ (w : WaveModel ℚ) (r : Required ℚ) (t : ℚ) (info : WaveInfo ℚ), fromWaveInformation (some w) 1000 10 (toWaveRequest r) t = .ok info ∧
      w.height info.elevations.x info.elevations.y info.elevations.t ≠ .ok info.elevations.z :=
  ⟨⟨fun x _ t => .ok (x.map (fun _ => t)), fun _ _ x _ _ _ _ => .ok x, fun _ x _ _ _ _ => .ok (x.map (fun a => (a, 0, 0))), fun _ _ _ => .ok []⟩,
    ⟨⟨1, [0], [0], []⟩, ⟨1, [], [], []⟩, ⟨1, [], [], []⟩, false, 0, 0, 0⟩, 2,
    ⟨none, ⟨2, [], [], []⟩, [], [], [], ⟨2, [0], [0], [1]⟩, ⟨2, [], [], []⟩, []⟩, by decide +kernel, by decide +kernel⟩

/-- **C125, refuted** A distant model which asks for the dynamic pressure at one point or more never gets an answer. -/
theorem pressures_never_sent_refuted (w : Option (WaveModel K)) (rho g t : K) (r : Required K) (hx : r.pressures.x ≠ []) (info : WaveInfo K) :
    fromWaveInformation w rho g (toWaveRequest r) t ≠ .ok info := by
  intro h
  cases w with
  | none => cases h
  | some w => exact hx (wave_information_content h).2.2.1.1

/-- **C125** Waves cannot be asked for when there is no wave model. -/
theorem no_wave_model (rho g t : K) (r : Required K) : ∃ what, fromWaveInformation none rho g r t = .error (.throw what) := ⟨_, rfl⟩

theorem orbitalVelocities_ok {s : WaveServer K} {x y z : List K} {t : K} {v : List (K × K × K)} (h : orbitalVelocities s x y z t = .ok v) : v.length = 1 := by
  unfold orbitalVelocities at h
  obtain ⟨r, -, h⟩ := bind_ok h
  split at h
  · cases h
  · rename_i h1
    split at h
    · cases h
    · split at h
      · cases h
      · have := (Hdb.mapM_inv h).1
        rw [this, List.length_range]
        exact not_not.mp h1

/-- **C125, refuted** When the wave model is distant as well, one velocity is sent, however many are asked for (none included). -/
theorem distant_velocities_refuted {s : WaveServer K} {rho g t : K} {r : Required K} {info : WaveInfo K}
    (h : fromWaveInformation (some (WaveModel.ofServer s)) rho g (toWaveRequest r) t = .ok info) :
    info.vx.length = 1 ∧ info.vy.length = 1 ∧ info.vz.length = 1 := by
  obtain ⟨-, ⟨-, eta, vs, -, h2, h3, h4, h5⟩, -, -⟩ := wave_information_content h
  have := orbitalVelocities_ok h2
  rw [h3, h4, h5]
  simp [this]

/-! ### C126: states sent to a distant force model -/

section states
variable [Field K] [LinearOrder K] [IsStrictOrderedRing K]

/-- The histories of a body after the states `l` have been recorded. -/
def Recorded (ae : Nat → K → K → Bool) (Tmax : K) (l : List (YamlState K)) (s : States (History K)) : Prop :=
  l.foldlM (fun h y => States.record ae h y) (States.newHistories Tmax) = .ok s

theorem record_fields {ae : Nat → K → K → Bool} {s s' : States (History K)} {ys : YamlState K} (h : States.record ae s ys = .ok s') (f : StateName) :
    (field s f).record ae ys.t (field ys.toStates f) = .ok (field s' f) := by
  unfold States.record at h
  obtain ⟨x, hx, h⟩ := bind_ok h
  obtain ⟨y, hy, h⟩ := bind_ok h
  obtain ⟨z, hz, h⟩ := bind_ok h
  obtain ⟨u, hu, h⟩ := bind_ok h
  obtain ⟨v, hv, h⟩ := bind_ok h
  obtain ⟨w, hw, h⟩ := bind_ok h
  obtain ⟨p, hp, h⟩ := bind_ok h
  obtain ⟨q, hq, h⟩ := bind_ok h
  obtain ⟨r, hr, h⟩ := bind_ok h
  obtain ⟨qr, hqr, h⟩ := bind_ok h
  obtain ⟨qi, hqi, h⟩ := bind_ok h
  obtain ⟨qj, hqj, h⟩ := bind_ok h
  obtain ⟨qk, hqk, h⟩ := bind_ok h
  simp only [pure, Except.pure, Except.ok.injEq] at h
  subst h
  cases f <;> assumption

/-- Histories which are recorded together have the same dates. -/
theorem recorded_same_dates {ae : Nat → K → K → Bool} {Tmax : K} {l : List (YamlState K)} {s : States (History K)} (h : Recorded ae Tmax l s)
    (f : StateName) : History.SameDates s.x (field s f) := by
  revert f
  refine Hdb.foldlM_inv (fun s : States (History K) => ∀ f, History.SameDates s.x (field s f)) h ?_ ?_
  · intro f
    cases f <;> exact ⟨rfl, rfl, rfl⟩
  · intro s ys s' _ ih hr f
    exact ERel.ok (History.record_dates ae (ih f) ys.t _ _) (record_fields hr .x) (record_fields hr f)

theorem fromState_fields {convert : Body.Mat3 K → K × K × K} {s : States (History K)} {tmax : K} {g : GStates K} (h : fromState convert s tmax = .ok g) :
    (∀ f, (field s f).getValues tmax = .ok (field g.toStates f)) ∧ g.t = s.x.getDates tmax ∧
    ∃ angles, (List.range g.qr.length).mapM (fun i => do
        let q : Body.Quat K := ⟨← getUB g.qr i, ← getUB g.qi i, ← getUB g.qj i, ← getUB g.qk i⟩
        return convert q.matrix) = .ok angles ∧
      g.phi = angles.map (fun a => a.1) ∧ g.theta = angles.map (fun a => a.2.1) ∧ g.psi = angles.map (fun a => a.2.2) := by
  unfold fromState at h
  obtain ⟨qr, hqr, h⟩ := bind_ok h
  obtain ⟨qi, hqi, h⟩ := bind_ok h
  obtain ⟨qj, hqj, h⟩ := bind_ok h
  obtain ⟨qk, hqk, h⟩ := bind_ok h
  obtain ⟨angles, ha, h⟩ := bind_ok h
  obtain ⟨x, hx, h⟩ := bind_ok h
  obtain ⟨y, hy, h⟩ := bind_ok h
  obtain ⟨z, hz, h⟩ := bind_ok h
  obtain ⟨u, hu, h⟩ := bind_ok h
  obtain ⟨v, hv, h⟩ := bind_ok h
  obtain ⟨w, hw, h⟩ := bind_ok h
  obtain ⟨p, hp, h⟩ := bind_ok h
  obtain ⟨q, hq, h⟩ := bind_ok h
  obtain ⟨r, hr, h⟩ := bind_ok h
  simp only [pure, Except.pure, Except.ok.injEq] at h
  subst h
  refine ⟨?_, rfl, angles, ha, rfl, rfl, rfl⟩
  intro f
  cases f <;> assumption

/-- **C126** The states sent to a distant force model are the samples recorded during the last `tmax` seconds: all of them, in their order, and each state with its
date. -/
theorem states_sent {ae : Nat → K → K → Bool} {Tmax : K} {l : List (YamlState K)} {s : States (History K)} (hs : Recorded ae Tmax l s)
    {convert : Body.Mat3 K → K × K × K} {tmax : K} (hm : tmax ≠ 0) {g : GStates K} (h : fromState convert s tmax = .ok g) (f : StateName) :
    g.t.length = (field g.toStates f).length ∧
    g.t.zip (field g.toStates f) = (field s f).L.filter (fun p => (field s f).currentTime - p.1 ≤ tmax) := by
  obtain ⟨h1, h2, -⟩ := fromState_fields h
  have h1 := h1 f
  have hd := History.getDates_same (recorded_same_dates hs f) tmax
  rw [h2, hd]
  unfold History.getValues at h1
  rw [if_neg hm] at h1
  unfold History.getDates
  rw [if_neg hm]
  simp only [Except.ok.injEq] at h1
  rw [← h1]
  refine ⟨by simp, ?_⟩
  rw [List.zip_map', List.map_id'' (fun _ => rfl)]

/-- **C126** When no history is asked for, the date of the current state and its values are sent. -/
theorem current_state_sent {ae : Nat → K → K → Bool} {Tmax : K} {l : List (YamlState K)} {s : States (History K)} (hs : Recorded ae Tmax l s)
    {convert : Body.Mat3 K → K × K × K} {g : GStates K} (h : fromState convert s 0 = .ok g) (f : StateName) :
    ∃ v, (field s f).value 0 = .ok v ∧ g.t = [(field s f).currentTime] ∧ field g.toStates f = [v] := by
  obtain ⟨h1, h2, -⟩ := fromState_fields h
  have h1 := h1 f
  have hd := History.getDates_same (recorded_same_dates hs f) 0
  rw [h2, hd]
  unfold History.getValues at h1
  rw [if_pos rfl] at h1
  obtain ⟨v, hv, h1⟩ := bind_ok h1
  simp only [pure, Except.pure, Except.ok.injEq] at h1
  exact ⟨v, hv, by simp [History.getDates], h1.symm⟩

theorem getValues_length {h h' : History K} (hs : History.SameDates h h') {tmax : K} {v v' : List K} (e : h.getValues tmax = .ok v)
    (e' : h'.getValues tmax = .ok v') : v.length = v'.length := by
  unfold History.getValues at e e'
  by_cases hm : tmax = 0
  · rw [if_pos hm] at e e'
    obtain ⟨a, -, e⟩ := bind_ok e
    obtain ⟨a', -, e'⟩ := bind_ok e'
    simp only [pure, Except.pure, Except.ok.injEq] at e e'
    rw [← e, ← e']
    rfl
  · rw [if_neg hm, Except.ok.injEq] at e e'
    have := congrArg List.length (History.getDates_same hs tmax)
    simp only [History.getDates, if_neg hm, List.length_map] at this
    rw [← e, ← e', List.length_map, List.length_map, this]

/-- **C126** The angles sent with a sample are the ones of the quaternion of the same sample. -/
theorem angles_sent {ae : Nat → K → K → Bool} {Tmax : K} {l : List (YamlState K)} {s : States (History K)} (hs : Recorded ae Tmax l s)
    {convert : Body.Mat3 K → K × K × K} {tmax : K} {g : GStates K} (h : fromState convert s tmax = .ok g) :
    g.phi.length = g.t.length ∧ g.theta.length = g.t.length ∧ g.psi.length = g.t.length ∧
    ∀ k, k < g.t.length → ∃ qr qi qj qk, g.qr[k]? = some qr ∧ g.qi[k]? = some qi ∧ g.qj[k]? = some qj ∧ g.qk[k]? = some qk ∧
      g.phi[k]? = some (convert (Body.Quat.matrix ⟨qr, qi, qj, qk⟩)).1 ∧ g.theta[k]? = some (convert (Body.Quat.matrix ⟨qr, qi, qj, qk⟩)).2.1 ∧
      g.psi[k]? = some (convert (Body.Quat.matrix ⟨qr, qi, qj, qk⟩)).2.2 := by
  obtain ⟨-, -, angles, ha, hphi, hth, hpsi⟩ := fromState_fields h
  have hlen : ∀ f, (field g.toStates f).length = g.t.length := by
    intro f
    by_cases hm : tmax = 0
    · subst hm
      obtain ⟨v, -, h2, h3⟩ := current_state_sent hs h f
      rw [h2, h3]
      rfl
    · exact (states_sent hs hm h f).1.symm
  obtain ⟨hl, hang⟩ := Hdb.mapM_inv ha
  have hqr : g.qr.length = g.t.length := hlen .qr
  rw [List.length_range, hqr] at hl
  refine ⟨by rw [hphi, List.length_map, hl], by rw [hth, List.length_map, hl], by rw [hpsi, List.length_map, hl], ?_⟩
  intro k hk
  obtain ⟨b, hb, he⟩ := hang k k (by rw [List.getElem?_range (by omega)])
  have get : ∀ (f : StateName), ∃ v, (field g.toStates f)[k]? = some v ∧ getUB (field g.toStates f) k = .ok v := by
    intro f
    have : k < (field g.toStates f).length := by rw [hlen f]; exact hk
    exact ⟨_, List.getElem?_eq_getElem this, by unfold getUB; rw [List.getElem?_eq_getElem this]⟩
  obtain ⟨qr, er, er'⟩ := get .qr
  obtain ⟨qi, ei, ei'⟩ := get .qi
  obtain ⟨qj, ej, ej'⟩ := get .qj
  obtain ⟨qk, ek, ek'⟩ := get .qk
  simp only [field] at er er' ei ei' ej ej' ek ek'
  simp only [er', ei', ej', ek', bind, Except.bind, pure, Except.pure, Except.ok.injEq] at he
  refine ⟨qr, qi, qj, qk, er, ei, ej, ek, ?_⟩
  rw [hphi, hth, hpsi, List.getElem?_map, List.getElem?_map, List.getElem?_map, hb, he]
  exact ⟨rfl, rfl, rfl⟩

theorem angles_ok (convert : Body.Mat3 K → K × K × K) (a b c d : List K) (hb : b.length = a.length) (hc : c.length = a.length) (hd : d.length = a.length) :
    ∃ angles, (List.range a.length).mapM (fun i => do
        let q : Body.Quat K := ⟨← getUB a i, ← getUB b i, ← getUB c i, ← getUB d i⟩
        return convert q.matrix) = Except.ok angles := by
  have : ∀ (l' : List Nat) (F : Nat → Except Err (K × K × K)), (∀ i ∈ l', ∃ v, F i = .ok v) → ∃ r, l'.mapM F = .ok r := by
    intro l' F
    induction l' with
    | nil => intro _; exact ⟨[], rfl⟩
    | cons a l' ih =>
      intro hF
      obtain ⟨v, hv⟩ := hF a (by simp)
      obtain ⟨r, hr⟩ := ih (fun i hi => hF i (by simp [hi]))
      exact ⟨v :: r, by rw [List.mapM_cons, hv, hr]; rfl⟩
  refine this _ _ ?_
  intro i hi
  rw [List.mem_range] at hi
  have ea : getUB a i = .ok a[i] := by unfold getUB; rw [List.getElem?_eq_getElem hi]
  have eb : getUB b i = .ok (b[i]'(by omega)) := by unfold getUB; rw [List.getElem?_eq_getElem (by omega)]
  have ec : getUB c i = .ok (c[i]'(by omega)) := by unfold getUB; rw [List.getElem?_eq_getElem (by omega)]
  have ed : getUB d i = .ok (d[i]'(by omega)) := by unfold getUB; rw [List.getElem?_eq_getElem (by omega)]
  simp only [ea, eb, ec, ed, bind, Except.bind, pure, Except.pure]
  exact ⟨_, rfl⟩

/-- **C126** The states can always be sent when a history is asked for. -/
theorem states_always_sent {ae : Nat → K → K → Bool} {Tmax : K} {l : List (YamlState K)} {s : States (History K)} (hs : Recorded ae Tmax l s)
    (convert : Body.Mat3 K → K × K × K) {tmax : K} (hm : tmax ≠ 0) : ∃ g, fromState convert s tmax = .ok g := by
  have hv : ∀ h : History K, ∃ v, h.getValues tmax = .ok v := by
    intro h; unfold History.getValues; rw [if_neg hm]; exact ⟨_, rfl⟩
  obtain ⟨a, ha⟩ := hv s.qr
  obtain ⟨b, hb⟩ := hv s.qi
  obtain ⟨c, hc⟩ := hv s.qj
  obtain ⟨d, hd⟩ := hv s.qk
  obtain ⟨x, hx⟩ := hv s.x
  have hl : ∀ f v, (field s f).getValues tmax = .ok v → v.length = x.length := fun f v hv' =>
    (getValues_length (recorded_same_dates hs f) hx hv').symm
  have la := hl .qr a ha
  obtain ⟨angles, hang⟩ := angles_ok convert a b c d ((hl .qi b hb).trans la.symm) ((hl .qj c hc).trans la.symm) ((hl .qk d hd).trans la.symm)
  obtain ⟨y, hy⟩ := hv s.y
  obtain ⟨z, hz⟩ := hv s.z
  obtain ⟨u, hu⟩ := hv s.u
  obtain ⟨v, hv'⟩ := hv s.v
  obtain ⟨w, hw⟩ := hv s.w
  obtain ⟨p, hp⟩ := hv s.p
  obtain ⟨q, hq⟩ := hv s.q
  obtain ⟨r, hr⟩ := hv s.r
  unfold fromState
  rw [ha, hb, hc, hd, hx, hy, hz, hu, hv', hw, hp, hq, hr]
  simp only [bind, Except.bind, pure, Except.pure] at hang ⊢
  rw [hang]
  exact ⟨_, rfl⟩

/-! ### C127: force of a distant model -/

/-- **C127** The force of a distant model is its answer, component by component, to a request which holds the states, the commands and (if the model needs waves) the
information on waves it asked for at the current position; the new extra observations are the ones of the answer. -/
theorem distant_force {convert : Body.Mat3 K → K × K × K} {srv : ForceServer K} {w : Option (WaveModel K)} {rho g tmax t : K} {needsWaves : Bool}
    {s : States (History K)} {commands : List (String × K)} {f : List K} {obs : List (String × K)}
    (h : force convert srv w rho g needsWaves tmax t s commands = .ok (f, obs)) :
    ∃ states waves code fx fy fz mx my mz,
      fromState convert s tmax = .ok states ∧
      srv.force (states, commands, waves) = (code, (fx, fy, fz, mx, my, mz), obs) ∧ f = [fx, fy, fz, mx, my, mz] ∧
      (∀ c : Code, c ≠ .OK → code ≠ c.value) ∧
      (needsWaves = false → waves = none) ∧
      (needsWaves = true → ∃ x y z rcode required info, s.x.value 0 = .ok x ∧ s.y.value 0 = .ok y ∧ s.z.value 0 = .ok z ∧
        srv.required (t, x, y, z) = (rcode, required) ∧ (∀ c : Code, c ≠ .OK → rcode ≠ c.value) ∧
        fromWaveInformation w rho g (toWaveRequest required) t = .ok info ∧ waves = some info) := by
  have calls : ∀ {Req Resp : Type} {m : Req → Int × Resp} {rq : Req} {rs : Resp}, call m rq = .ok rs →
      (m rq).2 = rs ∧ ∀ c : Code, c ≠ .OK → (m rq).1 ≠ c.value := by
    intro Req Resp m rq rs hc
    constructor
    · unfold call at hc
      obtain ⟨_, -, hc⟩ := bind_ok hc
      simpa [pure, Except.pure] using hc
    · intro c hne he
      obtain ⟨what, hw⟩ := (failed_call_throws_partial m rq).2 c hne he
      rw [hw] at hc
      cases hc
  unfold force at h
  obtain ⟨states, hst, h⟩ := bind_ok h
  obtain ⟨x, hx, h⟩ := bind_ok h
  obtain ⟨y, hy, h⟩ := bind_ok h
  obtain ⟨z, hz, h⟩ := bind_ok h
  obtain ⟨waves, hw, h⟩ := bind_ok h
  obtain ⟨r, hr, h⟩ := bind_ok h
  simp only [pure, Except.pure, Except.ok.injEq, Prod.mk.injEq] at h
  obtain ⟨hf, ho⟩ := h
  obtain ⟨hr1, hr2⟩ := calls hr
  refine ⟨states, waves, (srv.force (states, commands, waves)).1, r.1.1, r.1.2.1, r.1.2.2.1, r.1.2.2.2.1, r.1.2.2.2.2.1, r.1.2.2.2.2.2, hst, ?_, hf.symm,
    hr2, ?_, ?_⟩
  · rw [← ho]
    exact Prod.ext rfl hr1
  · intro hn
    subst hn
    simpa [waveInformation] using hw.symm
  · intro hn
    subst hn
    unfold waveInformation at hw
    rw [if_pos rfl] at hw
    obtain ⟨required, hq, hw⟩ := bind_ok hw
    obtain ⟨info, hi, hw⟩ := bind_ok hw
    simp only [pure, Except.pure, Except.ok.injEq] at hw
    obtain ⟨hq1, hq2⟩ := calls hq
    exact ⟨x, y, z, (srv.required (t, x, y, z)).1, required, info, hx, hy, hz, Prod.ext rfl hq1, hq2, hi, hw.symm⟩

end states

/-! ### The hypotheses can be met -/

/-- A state with the same value everywhere (and quaternion 1). -/
def exampleState (t v : ℚ) : YamlState ℚ := ⟨⟨v, v, v, v, v, v, v, v, v, 1, 0, 0, 0⟩, t, 0, 0, 0⟩

/-- A distant force model which asks for the elevation at one point. -/
def exampleServer : ForceServer ℚ where
  required := fun a => (0, ⟨⟨a.1, [a.2.1], [a.2.2.1], []⟩, ⟨a.1, [], [], []⟩, ⟨a.1, [], [], []⟩, false, 0, 0, 0⟩)
  force := fun rq => (0, (rq.1.x.sum, (rq.2.2.elim 0 (fun i => i.elevations.z.sum)), 3, 4, 5, 6), [("n", (rq.1.t.length : ℚ))])

def exampleWaves : WaveModel ℚ :=
  ⟨fun x _ t => .ok (x.map (fun a => a + t)), fun _ _ x _ _ _ _ => .ok x, fun _ x _ _ _ _ => .ok (x.map (fun a => (a, 0, 0))), fun _ _ _ => .ok []⟩

/-- Four states recorded, the last two sent. -/
example :
    let ae : Nat → ℚ → ℚ → Bool := fun _ a b => decide (a = b)
    let run := [exampleState 0 5, exampleState 1 6, exampleState 2 7, exampleState 3 8].foldlM (fun h y => States.record ae h y) (States.newHistories 10)
    (run >>= fun s => fromState (fun m => (m 0 0, m 1 1, 0)) s 1).map (fun g => (g.t, g.x, g.phi)) = .ok ([2, 3], [7, 8], [1, 1]) ∧
    (run >>= fun s => fromState (fun m => (m 0 0, m 1 1, 0)) s 0).map (fun g => (g.t, g.x, g.phi)) = .ok ([3], [8], [1]) ∧
    (run >>= fun s => force (fun m => (m 0 0, m 1 1, 0)) exampleServer (some exampleWaves) 1000 10 true 1 3 s []) = .ok ([15, 11, 3, 4, 5, 6], [("n", 2)]) := by
  decide +kernel

/-- Three spectra with two rows of phases each: all get the same phases. -/
example :
    let sp (a b : ℚ) : Spectrum ℚ := ⟨[1], [1], [1], [0], [1], [[a], [b]]⟩
    directionalSpectra ⟨fun _ => (0, []), fun _ => (0, []), fun _ => (0, [], [], []), fun _ => (0, [sp 1 2, sp 3 4, sp 5 6])⟩ 0 0 0 =
      .ok [sp 1 4, sp 1 4, sp 1 4] := by
  decide +kernel

/-- A distant wave model which gives one velocity. -/
example :
    let s : WaveServer ℚ := ⟨fun p => (0, p.x), fun p => (0, p.x), fun _ => (0, [1], [2], [3]), fun _ => (0, [])⟩
    (fromWaveInformation (some (WaveModel.ofServer s)) 1000 10 (toWaveRequest ⟨⟨1, [4], [5], []⟩, ⟨1, [], [], []⟩, ⟨1, [7], [8], [9]⟩, true, 0, 0, 0⟩) 1).map
      (fun i => (i.elevations.z, i.vx, i.vy, i.vz, i.spectrum.isSome)) = .ok ([4], [1], [2], [3], true) := by
  decide +kernel

end Xdyn.Grpc

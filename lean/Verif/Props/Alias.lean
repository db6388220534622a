import Verif.Proofs.Alias
import Verif.Props.Units

/-!
# C68, C77, C100: the drivers belong to the caller
-/

set_option linter.unusedSimpArgs false
set_option linter.unusedSectionVars false

namespace TwoLayer
variable {N α : Type} [Fintype N] [DecidableEq N] [Arith α]

/-! ## `TwoLayerModel` -/

/-- Drivers given in `W/m^2`: what the caller writes into the array after `set_drivers` is what the run uses. -/
theorem C68_two_layer_shared (R : Registry N α) (m : TLM N α) {vals new : List α} (hl : new.length = vals.length) :
    TLM.simulateChanged R (.qty ⟨1, vals⟩ R.wm2) new m = TLM.simulate R (.qty ⟨1, new⟩ R.wm2) m := by
  simp only [TLM.simulateChanged, TLM.simulate, Py.bind_apply, TLM.setDrivers_good R m (.inl rfl), TLM.overwrite,
    Py.modify_apply, Core.overwrite, hl, if_true, modelF_wm2]

/-- Drivers given in another unit: the run goes on using the values `set_drivers` saw, although `erf` reads back as
the new ones. -/
theorem C68_two_layer_copied (R : Registry N α) (m : TLM N α) {vals new : List α} {u : Units N} (hu : u ≠ R.wm2)
    (hc : R.compat u R.wm2 = true) (hn : ∀ x ∈ vals, Arith.isNaN x = false) (hn' : ∀ x ∈ new, Arith.isNaN x = false)
    (hl : new.length = vals.length) :
    ∃ m₁ m₂ r, TLM.simulateChanged R (.qty ⟨1, vals⟩ u) new m = (m₁, r) ∧
      TLM.simulate R (.qty ⟨1, vals⟩ u) m = (m₂, r) ∧ m₁.outputs = m₂.outputs ∧
      m₁.core.erf = .set new u ∧ m₂.core.erf = .set vals u := by
  have hg : GoodDrivers R (.qty ⟨1, vals⟩ u) vals u := ⟨rfl, .inr hc, List.any_eq_false.mpr (by simpa using hn)⟩
  have h1 : TLM.simulateChanged R (.qty ⟨1, vals⟩ u) new m =
      Py.times (TLM.step) vals.length ((m.ready R vals u).withErf (.set new u) (some (modelF R vals u))) := by
    simp only [TLM.simulateChanged, Py.bind_apply, TLM.setDrivers_good R m (.inr hc), TLM.overwrite,
      Py.modify_apply, Core.overwrite, hl, if_true, hu, if_false]
    rw [TLM.reset_set _ rfl rfl (List.any_eq_false.mpr (by simpa using hn'))]
    simp only [TLM.run, Py.bind_apply, Py.get_apply, Erf.length, hl]
    rfl
  have h2 := TLM.simulate_good R m hg
  have h3 := TLM.times_withErf (.set new u) vals.length (m.ready R vals u)
  have h4 := (TLM.times_erf vals.length (m.ready R vals u)).1
  refine ⟨_, _, _, h1.trans h3, h2, rfl, rfl, h4⟩

/-- Writing a NaN into the array makes the next `reset` refuse, whatever the unit. -/
theorem C68_two_layer_nan (R : Registry N α) (m : TLM N α) {vals new : List α} {u : Units N}
    (hu : u = R.wm2 ∨ R.compat u R.wm2 = true) (hn : ∃ x ∈ new, Arith.isNaN x = true)
    (hl : new.length = vals.length) :
    (TLM.simulateChanged R (.qty ⟨1, vals⟩ u) new m).2 = .error .modelState := by
  simp only [TLM.simulateChanged, Py.bind_apply, TLM.setDrivers_good R m hu, TLM.overwrite, Py.modify_apply,
    Core.overwrite, hl, if_true]
  rw [TLM.reset_nan _ (by obtain ⟨x, h, h'⟩ := hn; exact List.any_eq_true.mpr ⟨x, h, h'⟩)]

/-- Coupled use: if the array (in `W/m^2`) is rewritten before every step, the outputs are those of a plain run whose
driver at position `i` is what the array held there when the step to `i + 1` was taken. -/
theorem C77_two_layer (R : Registry N α) (m : TLM N α) {vals w : List α} {g : Nat → List α}
    (hn : ∀ x ∈ vals, Arith.isNaN x = false) (hnw : ∀ x ∈ w, Arith.isNaN x = false) (hw : w.length = vals.length)
    (hg : ∀ k, (g k).length = vals.length) (h : ∀ i, i + 1 < vals.length → w[i]? = (g (i + 1))[i]?) :
    ∃ m₁ m₂ r, TLM.coupled R (.qty ⟨1, vals⟩ R.wm2) g vals.length m = (m₁, r) ∧
      TLM.simulate R (.qty ⟨1, w⟩ R.wm2) m = (m₂, r) ∧ m₁.outputs = m₂.outputs := by
  have h1 : TLM.coupled R (.qty ⟨1, vals⟩ R.wm2) g vals.length m =
      interleave (fun k => TLM.overwrite R (g k)) (TLM.step) vals.length (m.ready R vals R.wm2) := by
    simp only [TLM.coupled, Py.bind_apply, TLM.setDrivers_good R m (.inl rfl)]
    rw [TLM.reset_set _ rfl rfl (List.any_eq_false.mpr (by simpa using hn))]
    rfl
  obtain ⟨l, -, hi⟩ := TLM.interleave_eq R m hw hg h vals.length le_rfl
  have h2 := TLM.simulate_good R m (d := .qty ⟨1, w⟩ R.wm2) (vals := w) (u := R.wm2)
    ⟨rfl, .inl rfl, List.any_eq_false.mpr (by simpa using hnw)⟩
  rw [hw] at h2
  exact ⟨_, _, _, h1.trans hi, h2, rfl⟩

/-! ## `ImpulseResponseModel` -/

/-- Drivers given in `W/m^2`: what the caller writes into the array after `set_drivers` is what the run uses. -/
theorem C68_impulse_response_shared (R : Registry N α) (m : IRM N α) {vals new : List α} (hl : new.length = vals.length) :
    IRM.simulateChanged R (.qty ⟨1, vals⟩ R.wm2) new m = IRM.simulate R (.qty ⟨1, new⟩ R.wm2) m := by
  simp only [IRM.simulateChanged, IRM.simulate, Py.bind_apply, IRM.setDrivers_good R m (.inl rfl), IRM.overwrite,
    Py.modify_apply, Core.overwrite, hl, if_true, modelF_wm2]

/-- Drivers given in another unit: the run goes on using the values `set_drivers` saw, although `erf` reads back as
the new ones. -/
theorem C68_impulse_response_copied (R : Registry N α) (m : IRM N α) {vals new : List α} {u : Units N} (hu : u ≠ R.wm2)
    (hc : R.compat u R.wm2 = true) (hn : ∀ x ∈ vals, Arith.isNaN x = false) (hn' : ∀ x ∈ new, Arith.isNaN x = false)
    (hl : new.length = vals.length) :
    ∃ m₁ m₂ r, IRM.simulateChanged R (.qty ⟨1, vals⟩ u) new m = (m₁, r) ∧
      IRM.simulate R (.qty ⟨1, vals⟩ u) m = (m₂, r) ∧ m₁.outputs = m₂.outputs ∧
      m₁.core.erf = .set new u ∧ m₂.core.erf = .set vals u := by
  have hg : GoodDrivers R (.qty ⟨1, vals⟩ u) vals u := ⟨rfl, .inr hc, List.any_eq_false.mpr (by simpa using hn)⟩
  have h1 : IRM.simulateChanged R (.qty ⟨1, vals⟩ u) new m =
      Py.times (IRM.step R) vals.length ((m.ready R vals u).withErf (.set new u) (some (modelF R vals u))) := by
    simp only [IRM.simulateChanged, Py.bind_apply, IRM.setDrivers_good R m (.inr hc), IRM.overwrite,
      Py.modify_apply, Core.overwrite, hl, if_true, hu, if_false]
    rw [IRM.reset_set _ rfl rfl (List.any_eq_false.mpr (by simpa using hn'))]
    simp only [IRM.run, Py.bind_apply, Py.get_apply, Erf.length, hl]
    rfl
  have h2 := IRM.simulate_good R m hg
  have h3 := IRM.times_withErf R (.set new u) vals.length (m.ready R vals u)
  have h4 := (IRM.times_erf R vals.length (m.ready R vals u)).1
  refine ⟨_, _, _, h1.trans h3, h2, rfl, rfl, h4⟩

/-- Writing a NaN into the array makes the next `reset` refuse, whatever the unit. -/
theorem C68_impulse_response_nan (R : Registry N α) (m : IRM N α) {vals new : List α} {u : Units N}
    (hu : u = R.wm2 ∨ R.compat u R.wm2 = true) (hn : ∃ x ∈ new, Arith.isNaN x = true)
    (hl : new.length = vals.length) :
    (IRM.simulateChanged R (.qty ⟨1, vals⟩ u) new m).2 = .error .modelState := by
  simp only [IRM.simulateChanged, Py.bind_apply, IRM.setDrivers_good R m hu, IRM.overwrite, Py.modify_apply,
    Core.overwrite, hl, if_true]
  rw [IRM.reset_nan _ (by obtain ⟨x, h, h'⟩ := hn; exact List.any_eq_true.mpr ⟨x, h, h'⟩)]

/-- Coupled use: if the array (in `W/m^2`) is rewritten before every step, the outputs are those of a plain run whose
driver at position `i` is what the array held there when the step to `i + 1` was taken. -/
theorem C77_impulse_response (R : Registry N α) (m : IRM N α) {vals w : List α} {g : Nat → List α}
    (hn : ∀ x ∈ vals, Arith.isNaN x = false) (hnw : ∀ x ∈ w, Arith.isNaN x = false) (hw : w.length = vals.length)
    (hg : ∀ k, (g k).length = vals.length) (h : ∀ i, i + 1 < vals.length → w[i]? = (g (i + 1))[i]?) :
    ∃ m₁ m₂ r, IRM.coupled R (.qty ⟨1, vals⟩ R.wm2) g vals.length m = (m₁, r) ∧
      IRM.simulate R (.qty ⟨1, w⟩ R.wm2) m = (m₂, r) ∧ m₁.outputs = m₂.outputs := by
  have h1 : IRM.coupled R (.qty ⟨1, vals⟩ R.wm2) g vals.length m =
      interleave (fun k => IRM.overwrite R (g k)) (IRM.step R) vals.length (m.ready R vals R.wm2) := by
    simp only [IRM.coupled, Py.bind_apply, IRM.setDrivers_good R m (.inl rfl)]
    rw [IRM.reset_set _ rfl rfl (List.any_eq_false.mpr (by simpa using hn))]
    rfl
  obtain ⟨l, -, hi⟩ := IRM.interleave_eq R m hw hg h vals.length le_rfl
  have h2 := IRM.simulate_good R m (d := .qty ⟨1, w⟩ R.wm2) (vals := w) (u := R.wm2)
    ⟨rfl, .inl rfl, List.any_eq_false.mpr (by simpa using hnw)⟩
  rw [hw] at h2
  exact ⟨_, _, _, h1.trans hi, h2, rfl⟩

/-! ## C100, `TwoLayerModel` -/

/-- Drivers given in `W/m^2` and converted in place to `v` after `set_drivers`: `erf` reads back in `v`, but the run takes
the converted numbers for `W/m^2`. -/
theorem C100_two_layer_wm2 (R : Registry N α) (m : TLM N α) {vals : List α} {v : Units N}
    (hv : R.compat R.wm2 v = true) (hn : ∀ x ∈ magsIn R vals R.wm2 v, Arith.isNaN x = false) :
    ∃ m₁ m₂ r, TLM.simulateIto R (.qty ⟨1, vals⟩ R.wm2) v m = (m₁, r) ∧
      TLM.simulate R (.qty ⟨1, magsIn R vals R.wm2 v⟩ R.wm2) m = (m₂, r) ∧ m₁.outputs = m₂.outputs ∧
      m₁.core.erf = .set (magsIn R vals R.wm2 v) v := by
  have hlen : (magsIn R vals R.wm2 v).length = vals.length := by simp [magsIn]
  have hg : GoodDrivers R (.qty ⟨1, magsIn R vals R.wm2 v⟩ R.wm2) (magsIn R vals R.wm2 v) R.wm2 :=
    ⟨rfl, .inl rfl, List.any_eq_false.mpr (by simpa using hn)⟩
  have e := modelF_wm2 R (magsIn R vals R.wm2 v)
  have h1 : TLM.simulateIto R (.qty ⟨1, vals⟩ R.wm2) v m = Py.times (TLM.step) (magsIn R vals R.wm2 v).length
      ((m.ready R (magsIn R vals R.wm2 v) R.wm2).withErf (.set (magsIn R vals R.wm2 v) v)
        (some (modelF R (magsIn R vals R.wm2 v) R.wm2))) := by
    simp only [TLM.simulateIto, Py.bind_apply, TLM.setDrivers_good R m (.inl rfl), TLM.itoErf,
      Py.modify_apply, Core.itoErf, hv, or_true, if_true]
    rw [TLM.reset_set _ rfl rfl (List.any_eq_false.mpr (by simpa using hn))]
    simp only [TLM.run, Py.bind_apply, Py.get_apply, Erf.length, e, TLM.ready, TLM.withErf]
  have h2 := TLM.simulate_good R m hg
  have h3 := TLM.times_withErf (.set (magsIn R vals R.wm2 v) v) (magsIn R vals R.wm2 v).length
    (m.ready R (magsIn R vals R.wm2 v) R.wm2)
  exact ⟨_, _, _, h1.trans h3, h2, rfl, rfl⟩

/-- Drivers given in another unit: converting them in place changes nothing but how `erf` reads back. -/
theorem C100_two_layer_other (R : Registry N α) (m : TLM N α) {vals : List α} {u v : Units N}
    (hu : u ≠ R.wm2) (hc : R.compat u R.wm2 = true) (hv : R.compat u v = true) (hn : ∀ x ∈ vals, Arith.isNaN x = false)
    (hn' : ∀ x ∈ magsIn R vals u v, Arith.isNaN x = false) :
    ∃ m₁ m₂ r, TLM.simulateIto R (.qty ⟨1, vals⟩ u) v m = (m₁, r) ∧
      TLM.simulate R (.qty ⟨1, vals⟩ u) m = (m₂, r) ∧ m₁.outputs = m₂.outputs ∧
      m₁.core.erf = .set (magsIn R vals u v) v ∧ m₂.core.erf = .set vals u := by
  have hlen : (magsIn R vals u v).length = vals.length := by simp [magsIn]
  have hg : GoodDrivers R (.qty ⟨1, vals⟩ u) vals u := ⟨rfl, .inr hc, List.any_eq_false.mpr (by simpa using hn)⟩
  have h1 : TLM.simulateIto R (.qty ⟨1, vals⟩ u) v m = Py.times (TLM.step) vals.length
      ((m.ready R vals u).withErf (.set (magsIn R vals u v) v) (some (modelF R vals u))) := by
    simp only [TLM.simulateIto, Py.bind_apply, TLM.setDrivers_good R m (.inr hc), TLM.itoErf,
      Py.modify_apply, Core.itoErf, hv, or_true, if_true, hu, if_false]
    rw [TLM.reset_set _ rfl rfl (List.any_eq_false.mpr (by simpa using hn'))]
    simp only [TLM.run, Py.bind_apply, Py.get_apply, Erf.length, hlen]
    rfl
  have h2 := TLM.simulate_good R m hg
  have h3 := TLM.times_withErf (.set (magsIn R vals u v) v) vals.length (m.ready R vals u)
  have h4 := (TLM.times_erf vals.length (m.ready R vals u)).1
  exact ⟨_, _, _, h1.trans h3, h2, rfl, rfl, h4⟩

/-- A conversion that pint refuses changes nothing. -/
theorem C100_two_layer_refused (R : Registry N α) (m : TLM N α) {vals : List α} {u v : Units N}
    (hu : u = R.wm2 ∨ R.compat u R.wm2 = true) (hv : u ≠ v) (hc : R.compat u v = false) :
    TLM.simulateIto R (.qty ⟨1, vals⟩ u) v m = TLM.simulate R (.qty ⟨1, vals⟩ u) m := by
  simp only [TLM.simulateIto, TLM.simulate, Py.bind_apply, TLM.setDrivers_good R m hu, TLM.itoErf, Py.modify_apply, Core.itoErf,
    hv, hc, false_or, Bool.false_eq_true, if_false]

/-! ## C100, `ImpulseResponseModel` -/

/-- Drivers given in `W/m^2` and converted in place to `v` after `set_drivers`: `erf` reads back in `v`, but the run takes
the converted numbers for `W/m^2`. -/
theorem C100_impulse_response_wm2 (R : Registry N α) (m : IRM N α) {vals : List α} {v : Units N}
    (hv : R.compat R.wm2 v = true) (hn : ∀ x ∈ magsIn R vals R.wm2 v, Arith.isNaN x = false) :
    ∃ m₁ m₂ r, IRM.simulateIto R (.qty ⟨1, vals⟩ R.wm2) v m = (m₁, r) ∧
      IRM.simulate R (.qty ⟨1, magsIn R vals R.wm2 v⟩ R.wm2) m = (m₂, r) ∧ m₁.outputs = m₂.outputs ∧
      m₁.core.erf = .set (magsIn R vals R.wm2 v) v := by
  have hlen : (magsIn R vals R.wm2 v).length = vals.length := by simp [magsIn]
  have hg : GoodDrivers R (.qty ⟨1, magsIn R vals R.wm2 v⟩ R.wm2) (magsIn R vals R.wm2 v) R.wm2 :=
    ⟨rfl, .inl rfl, List.any_eq_false.mpr (by simpa using hn)⟩
  have e := modelF_wm2 R (magsIn R vals R.wm2 v)
  have h1 : IRM.simulateIto R (.qty ⟨1, vals⟩ R.wm2) v m = Py.times (IRM.step R) (magsIn R vals R.wm2 v).length
      ((m.ready R (magsIn R vals R.wm2 v) R.wm2).withErf (.set (magsIn R vals R.wm2 v) v)
        (some (modelF R (magsIn R vals R.wm2 v) R.wm2))) := by
    simp only [IRM.simulateIto, Py.bind_apply, IRM.setDrivers_good R m (.inl rfl), IRM.itoErf,
      Py.modify_apply, Core.itoErf, hv, or_true, if_true]
    rw [IRM.reset_set _ rfl rfl (List.any_eq_false.mpr (by simpa using hn))]
    simp only [IRM.run, Py.bind_apply, Py.get_apply, Erf.length, e, IRM.ready, IRM.withErf]
  have h2 := IRM.simulate_good R m hg
  have h3 := IRM.times_withErf R (.set (magsIn R vals R.wm2 v) v) (magsIn R vals R.wm2 v).length
    (m.ready R (magsIn R vals R.wm2 v) R.wm2)
  exact ⟨_, _, _, h1.trans h3, h2, rfl, rfl⟩

/-- Drivers given in another unit: converting them in place changes nothing but how `erf` reads back. -/
theorem C100_impulse_response_other (R : Registry N α) (m : IRM N α) {vals : List α} {u v : Units N}
    (hu : u ≠ R.wm2) (hc : R.compat u R.wm2 = true) (hv : R.compat u v = true) (hn : ∀ x ∈ vals, Arith.isNaN x = false)
    (hn' : ∀ x ∈ magsIn R vals u v, Arith.isNaN x = false) :
    ∃ m₁ m₂ r, IRM.simulateIto R (.qty ⟨1, vals⟩ u) v m = (m₁, r) ∧
      IRM.simulate R (.qty ⟨1, vals⟩ u) m = (m₂, r) ∧ m₁.outputs = m₂.outputs ∧
      m₁.core.erf = .set (magsIn R vals u v) v ∧ m₂.core.erf = .set vals u := by
  have hlen : (magsIn R vals u v).length = vals.length := by simp [magsIn]
  have hg : GoodDrivers R (.qty ⟨1, vals⟩ u) vals u := ⟨rfl, .inr hc, List.any_eq_false.mpr (by simpa using hn)⟩
  have h1 : IRM.simulateIto R (.qty ⟨1, vals⟩ u) v m = Py.times (IRM.step R) vals.length
      ((m.ready R vals u).withErf (.set (magsIn R vals u v) v) (some (modelF R vals u))) := by
    simp only [IRM.simulateIto, Py.bind_apply, IRM.setDrivers_good R m (.inr hc), IRM.itoErf,
      Py.modify_apply, Core.itoErf, hv, or_true, if_true, hu, if_false]
    rw [IRM.reset_set _ rfl rfl (List.any_eq_false.mpr (by simpa using hn'))]
    simp only [IRM.run, Py.bind_apply, Py.get_apply, Erf.length, hlen]
    rfl
  have h2 := IRM.simulate_good R m hg
  have h3 := IRM.times_withErf R (.set (magsIn R vals u v) v) vals.length (m.ready R vals u)
  have h4 := (IRM.times_erf R vals.length (m.ready R vals u)).1
  exact ⟨_, _, _, h1.trans h3, h2, rfl, rfl, h4⟩

/-- A conversion that pint refuses changes nothing. -/
theorem C100_impulse_response_refused (R : Registry N α) (m : IRM N α) {vals : List α} {u v : Units N}
    (hu : u = R.wm2 ∨ R.compat u R.wm2 = true) (hv : u ≠ v) (hc : R.compat u v = false) :
    IRM.simulateIto R (.qty ⟨1, vals⟩ u) v m = IRM.simulate R (.qty ⟨1, vals⟩ u) m := by
  simp only [IRM.simulateIto, IRM.simulate, Py.bind_apply, IRM.setDrivers_good R m hu, IRM.itoErf, Py.modify_apply, Core.itoErf,
    hv, hc, false_or, Bool.false_eq_true, if_false]

/-- How wrong that is: if one `v` is `κ` W/m², the run answers to drivers divided by `κ` — both models. -/
theorem C100_factor {N : Type} [Fintype N] [DecidableEq N] {R : Registry N XR} (L : R.Lawful) {v : Units N} {κ : ℝ}
    (hκ : IsNum R ⟨.fin 1, v⟩ R.wm2 κ) (n : ℕ) (F : ℕ → ℝ) :
    (∀ m : TLM N XR, ∃ m₁ m₂ r, TLM.simulateIto R (.qty ⟨1, series n F⟩ R.wm2) v m = (m₁, r) ∧
      TLM.simulate R (.qty ⟨1, series n fun i => F i / κ⟩ R.wm2) m = (m₂, r) ∧ m₁.outputs = m₂.outputs) ∧
    (∀ m : IRM N XR, ∃ m₁ m₂ r, IRM.simulateIto R (.qty ⟨1, series n F⟩ R.wm2) v m = (m₁, r) ∧
      IRM.simulate R (.qty ⟨1, series n fun i => F i / κ⟩ R.wm2) m = (m₂, r) ∧ m₁.outputs = m₂.outputs) := by
  obtain ⟨h1, h2⟩ := L.isNum_iff.mp hκ
  have hdim : L.dm v = L.dm R.wm2 := h2
  have hsc : L.sc v = κ * L.sc R.wm2 := by
    have := congrArg Qty.mag h1
    simp only [Registry.Lawful.quant_mag, XR.fin_inj] at this
    have hv := L.sc_ne v
    field_simp at this
    linarith
  have hm : magsIn R (series n F) R.wm2 v = series n fun i => F i / κ := by
    simp only [magsIn, series, List.map_map]
    refine List.map_congr_left fun i _ => ?_
    show (Qty.mk (XR.fin (F i)) R.wm2).magIn R v = _
    rw [L.quant_self ⟨.fin (F i), R.wm2⟩ (F i) rfl]
    refine (L.magIn_mk _ _ _ hdim.symm).trans ?_
    rw [hsc]
    have hw := L.sc_ne R.wm2
    congr 1
    have hκ0 : κ ≠ 0 := by rintro rfl; exact L.sc_ne v (by rw [hsc]; ring)
    field_simp
  have hc : R.compat R.wm2 v = true := (L.compat _ _).mpr hdim.symm
  have hn : ∀ x ∈ magsIn R (series n F) R.wm2 v, Arith.isNaN x = false := by
    rw [hm]; intro x hx
    obtain ⟨i, -, rfl⟩ := List.mem_map.mp hx
    rfl
  constructor
  · intro m
    obtain ⟨m₁, m₂, r, a, b, c, -⟩ := C100_two_layer_wm2 R m hc hn
    rw [hm] at b
    exact ⟨m₁, m₂, r, a, b, c⟩
  · intro m
    obtain ⟨m₁, m₂, r, a, b, c, -⟩ := C100_impulse_response_wm2 R m hc hn
    rw [hm] at b
    exact ⟨m₁, m₂, r, a, b, c⟩

/-! ## Concrete cases -/

/-- Drivers in `kW/m^2`: compatible with, but not the same unit as, `W/m^2`; three values, rewritten by three others. -/
example : U0.kwU ≠ U0.reg.wm2 ∧ U0.reg.compat U0.kwU U0.reg.wm2 = true ∧
    (∀ x ∈ [XR.fin 1, .fin 2, .fin 3], Arith.isNaN x = false) ∧ (∀ x ∈ [XR.fin 4, .fin 5, .fin 6], Arith.isNaN x = false) ∧
    (∃ x ∈ [XR.fin 4, .nan, .fin 6], Arith.isNaN x = true) := by
  refine ⟨?_, ?_, ?_, ?_, ?_⟩
  · intro h
    have := congrFun h U0.kilowatt
    simp [U0.kwU, Registry.wm2, u1, U0.reg, Pi.single_apply] at this
  · have h : U0.lawful.dm U0.kwU = U0.lawful.dm U0.reg.wm2 := by
      simp only [U0.kwU, Registry.wm2, U0.lawful.dm_sub, U0.dm_u1, U0.lawful.dm_smul]; rfl
    exact (U0.lawful.compat_iff _ _).mpr h
  · intro x hx; fin_cases hx <;> rfl
  · intro x hx; fin_cases hx <;> rfl
  · exact ⟨.nan, by simp, rfl⟩

/-- Before step `k` the array is filled with `k`: the run is the one with drivers 1, 2, 3 (the last is never read). -/
example (g : Nat → List XR) (hg : g = fun k : ℕ => [XR.fin k, .fin k, .fin k]) :
    (∀ k, (g k).length = [XR.fin 7, .fin 7, .fin 7].length) ∧
    ∀ i, i + 1 < [XR.fin 7, .fin 7, .fin 7].length → [XR.fin 1, .fin 2, .fin 3][i]? = (g (i + 1))[i]? := by
  subst hg
  refine ⟨fun _ => rfl, fun i hi => ?_⟩
  simp only [List.length_cons, List.length_nil] at hi
  have : i < 2 := by omega
  interval_cases i <;> norm_num

/-- Drivers of 3000 W/m² converted in place to kW/m² act like 3 W/m². -/
example (m : TLM U0 XR) : ∃ m₁ m₂ r, TLM.simulateIto U0.reg (.qty ⟨1, series 5 fun _ => 3000⟩ U0.reg.wm2) U0.kwU m = (m₁, r) ∧
    TLM.simulate U0.reg (.qty ⟨1, series 5 fun _ => 3⟩ U0.reg.wm2) m = (m₂, r) ∧ m₁.outputs = m₂.outputs := by
  have h := (C100_factor U0.lawful (U0.kw_num 1) 5 fun _ => 3000).1 m
  norm_num at h ⊢
  exact h

end TwoLayer

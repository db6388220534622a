import Verif.Spec.Api
import Verif.Proofs.Times

/-! # `set_drivers` + `reset` + `run`, reduced to the recurrence -/

set_option linter.unusedSimpArgs false
set_option linter.unusedSectionVars false

namespace TwoLayer
variable {N α : Type} [Fintype N] [DecidableEq N] [Arith α]

/-- drivers that are accepted: one-dimensional Quantity array, right dimension, no NaN -/
def GoodDrivers (R : Registry N α) (d : DArg N α) (vals : List α) (u : Units N) : Prop :=
  d = .qty ⟨1, vals⟩ u ∧ (u = R.wm2 ∨ R.compat u R.wm2 = true) ∧ vals.any Arith.isNaN = false

/-- the driver magnitudes in model units -/
abbrev modelF (R : Registry N α) (vals : List α) (u : Units N) : List α := magsIn R vals u R.wm2

@[simp] theorem modelF_length (R : Registry N α) (vals : List α) (u : Units N) :
    (modelF R vals u).length = vals.length := by simp [modelF, magsIn]

theorem modelF_take (R : Registry N α) (vals : List α) (u : Units N) (k : Nat) :
    (modelF R vals u).take k = modelF R (vals.take k) u := by simp [modelF, magsIn, List.map_take]

namespace TLM
/-- the object after `set_drivers` and `reset` -/
def ready (R : Registry N α) (m : TLM N α) (vals : List α) (u : Units N) : TLM N α :=
  { m with core := { m.core with erf := .set vals u, erfMag := some (modelF R vals u) }
           idx := none
           tu := nanLike (modelF R vals u)
           tl := nanLike (modelF R vals u)
           rndt := nanLike (modelF R vals u) }

@[simp] theorem ready_view (R : Registry N α) (m : TLM N α) (vals : List α) (u : Units N) :
    (m.ready R vals u).view = View.fresh (modelF R vals u) := rfl

@[simp] theorem ready_eng (R : Registry N α) (m : TLM N α) (vals : List α) (u : Units N) :
    (m.ready R vals u).eng = m.eng := rfl

theorem setDrivers_good (R : Registry N α) (m : TLM N α) {vals : List α} {u : Units N}
    (hu : u = R.wm2 ∨ R.compat u R.wm2 = true) :
    setDrivers R (.qty ⟨1, vals⟩ u) m = ({ m with core := { m.core with
      erf := .set vals u, erfMag := some (modelF R vals u) } }, .ok ()) := by
  simp [setDrivers, Py.onCore, Core.setDrivers, Core.setErf, hu]

theorem reset_set (m : TLM N α) {vals F : List α} {u : Units N} (h1 : m.core.erf = .set vals u)
    (h2 : m.core.erfMag = some F) (hn : vals.any Arith.isNaN = false) :
    TLM.reset m = ({ m with idx := none, tu := nanLike F, tl := nanLike F, rndt := nanLike F }, .ok ()) := by
  have : m.core.erf.anyNaN = false := by rw [h1]; exact hn
  simp [TLM.reset, this, h2]

theorem reset_nan (m : TLM N α) (h1 : m.core.erf.anyNaN = true) :
    TLM.reset m = (m, .error .modelState) := by
  simp [TLM.reset, h1]

theorem simulate_good (R : Registry N α) (m : TLM N α) {d : DArg N α} {vals : List α} {u : Units N}
    (h : GoodDrivers R d vals u) :
    simulate R d m = Py.times TLM.step vals.length (m.ready R vals u) := by
  obtain ⟨rfl, hu, hn⟩ := h
  simp only [simulate, Py.bind_apply]
  rw [setDrivers_good R m hu]
  simp only
  rw [reset_set _ rfl rfl hn]
  rfl

theorem simulate_bad (R : Registry N α) (m : TLM N α) {d : DArg N α}
    (h : ∀ vals u, ¬ GoodDrivers R d vals u) : ∃ e, (simulate R d m).2 = .error e := by
  cases d with
  | bare a =>
    by_cases ha : a.ndim = 1 <;>
      simp [simulate, Py.bind_apply, setDrivers, Py.onCore, Core.setDrivers, Core.setErf, ha]
  | qty a u =>
    obtain ⟨nd, vals⟩ := a
    by_cases ha : nd = 1
    · subst ha
      by_cases hu : (u = R.wm2 ∨ R.compat u R.wm2 = true)
      · by_cases hn : vals.any Arith.isNaN = false
        · exact absurd ⟨rfl, hu, hn⟩ (h vals u)
        · simp only [Bool.not_eq_false] at hn
          refine ⟨.modelState, ?_⟩
          simp only [simulate, Py.bind_apply]
          rw [setDrivers_good R m hu]
          simp only
          rw [reset_nan _ (by exact hn)]
      · exact ⟨.unitError "erf", by simp [simulate, Py.bind_apply, setDrivers, Py.onCore, Core.setDrivers, Core.setErf, hu]⟩
    · exact ⟨.assertion "erf must be one-dimensional", by
        simp [simulate, Py.bind_apply, setDrivers, Py.onCore, Core.setDrivers, Core.setErf, ha]⟩

/-- a successful simulation: good drivers, and the cells hold the recurrence -/
theorem simulate_ok {R : Registry N α} {m m' : TLM N α} {d : DArg N α} (h : simulate R d m = (m', .ok ())) :
    ∃ vals u v, GoodDrivers R d vals u ∧ m' = (m.ready R vals u).setView v ∧
      View.Inv m.eng (modelF R vals u) vals.length v := by
  by_cases hg : ∃ vals u, GoodDrivers R d vals u
  · obtain ⟨vals, u, hg⟩ := hg
    rw [simulate_good R m hg] at h
    obtain ⟨_, v, h1, h2⟩ := TLM.stepper.times_inv (m.ready R vals u) (modelF R vals u) rfl
      (by rw [modelF_length]) h
    exact ⟨vals, u, v, hg, h1, h2⟩
  · obtain ⟨e, he⟩ := simulate_bad R m (fun v u hh => hg ⟨v, u, hh⟩)
    rw [h] at he; cases he

theorem seq_ok (m : TLM N α) (F : List α) : ∀ i, i < F.length → ∃ x, m.eng.seq F i = .ok x := by
  intro i
  induction i with
  | zero => intro _; exact ⟨_, rfl⟩
  | succ i ih =>
    intro hi
    obtain ⟨⟨a, b, c⟩, hx⟩ := ih (by omega)
    have hg : getAt F i = .ok (F[i]'(by omega)) := by
      simp only [getAt]; rw [List.getElem?_eq_getElem (by omega)]
    exact ⟨_, by simp only [Eng.seq, hx, hg]; rfl⟩

/-- a two-layer simulation with good drivers always succeeds -/
theorem simulate_succeeds (R : Registry N α) (m : TLM N α) {d : DArg N α} {vals : List α} {u : Units N}
    (h : GoodDrivers R d vals u) : ∃ m', simulate R d m = (m', .ok ()) := by
  rw [simulate_good R m h]
  obtain ⟨v, hv, _⟩ := TLM.stepper.times_ok (m.ready R vals u) (modelF R vals u) rfl vals.length
    (by simp) (fun i hi => m.seq_ok _ i (by simpa using hi))
  exact ⟨_, hv⟩
end TLM

namespace IRM
/-- the object after `set_drivers` and `reset` -/
def ready (R : Registry N α) (m : IRM N α) (vals : List α) (u : Units N) : IRM N α :=
  { m with core := { m.core with erf := .set vals u, erfMag := some (modelF R vals u) }
           idx := none
           t1 := nanLike (modelF R vals u)
           t2 := nanLike (modelF R vals u)
           rndt := nanLike (modelF R vals u) }

@[simp] theorem ready_view (R : Registry N α) (m : IRM N α) (vals : List α) (u : Units N) :
    (m.ready R vals u).view = View.fresh (modelF R vals u) := rfl

@[simp] theorem ready_eng (R : Registry N α) (m : IRM N α) (vals : List α) (u : Units N) :
    (m.ready R vals u).eng R = m.eng R := rfl

theorem setDrivers_good (R : Registry N α) (m : IRM N α) {vals : List α} {u : Units N}
    (hu : u = R.wm2 ∨ R.compat u R.wm2 = true) :
    setDrivers R (.qty ⟨1, vals⟩ u) m = ({ m with core := { m.core with
      erf := .set vals u, erfMag := some (modelF R vals u) } }, .ok ()) := by
  simp [setDrivers, Py.onCore, Core.setDrivers, Core.setErf, hu]

theorem reset_set (m : IRM N α) {vals F : List α} {u : Units N} (h1 : m.core.erf = .set vals u)
    (h2 : m.core.erfMag = some F) (hn : vals.any Arith.isNaN = false) :
    IRM.reset m = ({ m with idx := none, t1 := nanLike F, t2 := nanLike F, rndt := nanLike F }, .ok ()) := by
  have : m.core.erf.anyNaN = false := by rw [h1]; exact hn
  simp [IRM.reset, this, h2]

theorem reset_nan (m : IRM N α) (h1 : m.core.erf.anyNaN = true) :
    IRM.reset m = (m, .error .modelState) := by
  simp [IRM.reset, h1]

theorem simulate_good (R : Registry N α) (m : IRM N α) {d : DArg N α} {vals : List α} {u : Units N}
    (h : GoodDrivers R d vals u) :
    simulate R d m = Py.times (IRM.step R) vals.length (m.ready R vals u) := by
  obtain ⟨rfl, hu, hn⟩ := h
  simp only [simulate, Py.bind_apply]
  rw [setDrivers_good R m hu]
  simp only
  rw [reset_set _ rfl rfl hn]
  rfl

theorem simulate_bad (R : Registry N α) (m : IRM N α) {d : DArg N α}
    (h : ∀ vals u, ¬ GoodDrivers R d vals u) : ∃ e, (simulate R d m).2 = .error e := by
  cases d with
  | bare a =>
    by_cases ha : a.ndim = 1 <;>
      simp [simulate, Py.bind_apply, setDrivers, Py.onCore, Core.setDrivers, Core.setErf, ha]
  | qty a u =>
    obtain ⟨nd, vals⟩ := a
    by_cases ha : nd = 1
    · subst ha
      by_cases hu : (u = R.wm2 ∨ R.compat u R.wm2 = true)
      · by_cases hn : vals.any Arith.isNaN = false
        · exact absurd ⟨rfl, hu, hn⟩ (h vals u)
        · simp only [Bool.not_eq_false] at hn
          refine ⟨.modelState, ?_⟩
          simp only [simulate, Py.bind_apply]
          rw [setDrivers_good R m hu]
          simp only
          rw [reset_nan _ (by exact hn)]
      · exact ⟨.unitError "erf", by simp [simulate, Py.bind_apply, setDrivers, Py.onCore, Core.setDrivers, Core.setErf, hu]⟩
    · exact ⟨.assertion "erf must be one-dimensional", by
        simp [simulate, Py.bind_apply, setDrivers, Py.onCore, Core.setDrivers, Core.setErf, ha]⟩

/-- a successful simulation: good drivers, and the cells hold the recurrence -/
theorem simulate_ok {R : Registry N α} {m m' : IRM N α} {d : DArg N α} (h : simulate R d m = (m', .ok ())) :
    ∃ vals u v, GoodDrivers R d vals u ∧ m' = (m.ready R vals u).setView v ∧
      View.Inv (m.eng R) (modelF R vals u) vals.length v := by
  by_cases hg : ∃ vals u, GoodDrivers R d vals u
  · obtain ⟨vals, u, hg⟩ := hg
    rw [simulate_good R m hg] at h
    obtain ⟨_, v, h1, h2⟩ := (IRM.stepper R).times_inv (m.ready R vals u) (modelF R vals u) rfl
      (by rw [modelF_length]) h
    exact ⟨vals, u, v, hg, h1, h2⟩
  · obtain ⟨e, he⟩ := simulate_bad R m (fun v u hh => hg ⟨v, u, hh⟩)
    rw [h] at he; cases he
end IRM

/-- the recurrence up to index `i` only looks at the first `i` driver values -/
theorem Eng.seq_congr (e : Eng α) (F G : List α) : ∀ i, F.take i = G.take i → e.seq F i = e.seq G i := by
  intro i
  induction i with
  | zero => intro _; rfl
  | succ i ih =>
    intro h
    have h1 : F.take i = G.take i := by
      have := congrArg (List.take i) h
      simpa [List.take_take] using this
    have h2 : F[i]? = G[i]? := by
      have := congrArg (fun l => l[i]?) h
      simpa [List.getElem?_take] using this
    simp only [Eng.seq, ih h1, getAt, h2]

end TwoLayer

import Verif.Proofs.Ensemble
import Verif.Proofs.Init

/-!
# C107: an ensemble run is the runs of its members

Stated for every arithmetic `α` (no laws), hence for doubles, every registry and every finite set `ι` of members.
A value over `Ens ι α` is a number shared by all members or a row with one number per member; `member i` is what member
`i` sees of it (`Spec/Ensemble.lean`).
-/

set_option linter.unusedSimpArgs false
set_option linter.unusedSectionVars false

namespace TwoLayer
variable {N ι α : Type} [Fintype N] [DecidableEq N] [Fintype ι] [Arith α] {R : Registry N α}

private theorem map_id' {x : Except Err Unit} : x.map (id : Unit → Unit) = x := by cases x <;> rfl

section
variable [DecidableEq α]

private theorem tl_after (i : ι) (h : List (TLM.EnsOp N ι α)) (hc : ∀ op ∈ h, op.complete) (m : TLM N (Ens ι α)) (hm : m.Uni) :
    (TLM.after (R.members ι) m (h.map TLM.EnsOp.op)).member i = TLM.after R (m.member i) (h.map (TLM.EnsOp.member i)) ∧
    (TLM.after (R.members ι) m (h.map TLM.EnsOp.op)).Uni := by
  induction h generalizing m with
  | nil => exact ⟨rfl, hm⟩
  | cons op h ih =>
    obtain ⟨h1, h2, -⟩ := TLM.sim_call (R := R) i op (hc op (by simp)) m hm
    obtain ⟨h3, h4⟩ := ih (fun op' h' => hc op' (by simp [h'])) _ h2
    refine ⟨?_, h4⟩
    show (TLM.after (R.members ι) (TLM.call (R.members ι) op.op m).1 (h.map TLM.EnsOp.op)).member i =
      TLM.after R (TLM.call R (op.member i) (m.member i)).1 (h.map (TLM.EnsOp.member i))
    rw [h1]; exact h3

private theorem ir_after (i : ι) (h : List (IRM.EnsOp N ι α)) (hc : ∀ op ∈ h, op.complete) (m : IRM N (Ens ι α)) (hm : m.Uni) :
    (IRM.after (R.members ι) m (h.map IRM.EnsOp.op)).member i = IRM.after R (m.member i) (h.map (IRM.EnsOp.member i)) ∧
    (IRM.after (R.members ι) m (h.map IRM.EnsOp.op)).Uni := by
  induction h generalizing m with
  | nil => exact ⟨rfl, hm⟩
  | cons op h ih =>
    obtain ⟨h1, h2, -⟩ := IRM.sim_call (R := R) i op (hc op (by simp)) m hm
    obtain ⟨h3, h4⟩ := ih (fun op' h' => hc op' (by simp [h'])) _ h2
    refine ⟨?_, h4⟩
    show (IRM.after (R.members ι) (IRM.call (R.members ι) op.op m).1 (h.map IRM.EnsOp.op)).member i =
      IRM.after R (IRM.call R (op.member i) (m.member i)).1 (h.map (IRM.EnsOp.member i))
    rw [h1]; exact h3

/-- Two-layer ensembles, parameters scalars or rows, drivers without missing values: the constructor does for the ensemble
what it does for every member; after any history of calls (exceptions caught) the ensemble object is, for every
member, the object its own program would hold; and the next call raises the same exception or none. -/
theorem C107_two_layer (x : TLM.Args N (Ens ι α)) (i : ι) :
    TLM.init R (x.member i) = (TLM.init (R.members ι) x).map (TLM.member i) ∧
    ∀ m, TLM.init (R.members ι) x = .ok m → ∀ h : List (TLM.EnsOp N ι α), (∀ op ∈ h, op.complete) →
      (TLM.after (R.members ι) m (h.map TLM.EnsOp.op)).member i =
        TLM.after R (m.member i) (h.map (TLM.EnsOp.member i)) ∧
      ∀ op : TLM.EnsOp N ι α, op.complete →
        (TLM.call (R.members ι) op.op (TLM.after (R.members ι) m (h.map TLM.EnsOp.op))).2 =
        (TLM.call R (op.member i) (TLM.after R (m.member i) (h.map (TLM.EnsOp.member i)))).2 := by
  obtain ⟨h0, hu⟩ := TLM.eref_init (R := R) i x
  refine ⟨h0, fun m hm h hc => ?_⟩
  obtain ⟨h1, h2⟩ := tl_after (R := R) i h hc m (hu m hm)
  refine ⟨h1, fun op hop => ?_⟩
  have h3 := (TLM.sim_call (R := R) i op hop _ h2).1
  rw [h1] at h3
  rw [h3, map_id']

/-- Impulse response ensembles: scalar parameters, drivers with one column per member. -/
theorem C107_impulse_response (x : IRM.Args N α) (i : ι) :
    IRM.init R x = (IRM.init (R.members ι) (x.shared ι)).map (IRM.member i) ∧
    ∀ m, IRM.init (R.members ι) (x.shared ι) = .ok m → ∀ h : List (IRM.EnsOp N ι α), (∀ op ∈ h, op.complete) →
      (IRM.after (R.members ι) m (h.map IRM.EnsOp.op)).member i =
        IRM.after R (m.member i) (h.map (IRM.EnsOp.member i)) ∧
      ∀ op : IRM.EnsOp N ι α, op.complete →
        (IRM.call (R.members ι) op.op (IRM.after (R.members ι) m (h.map IRM.EnsOp.op))).2 =
        (IRM.call R (op.member i) (IRM.after R (m.member i) (h.map (IRM.EnsOp.member i)))).2 := by
  obtain ⟨h0, hu⟩ := IRM.eref_init (R := R) i x
  refine ⟨h0, fun m hm h hc => ?_⟩
  obtain ⟨h1, h2⟩ := ir_after (R := R) i h hc m (hu m hm)
  refine ⟨h1, fun op hop => ?_⟩
  have h3 := (IRM.sim_call (R := R) i op hop _ h2).1
  rw [h1] at h3
  rw [h3, map_id']

/-- In particular a run: assigning two-dimensional drivers without missing values to an ensemble object, `reset` and `run`
gives, for every member, the outcome and the output series of `set_drivers`, `reset`, `run` with its column. -/
theorem C107_run_two_layer (x : TLM.Args N (Ens ι α)) (i : ι) {m : TLM N (Ens ι α)} (hm : TLM.init (R.members ι) x = .ok m)
    (h : List (TLM.EnsOp N ι α)) (hc : ∀ op ∈ h, op.complete) (vals : List (ι → α)) (u : Units N)
    (hv : ∀ f ∈ vals, ∀ j, Arith.isNaN (f j) = false) :
    let e := TLM.ensemble (R.members ι) vals u (TLM.after (R.members ι) m (h.map TLM.EnsOp.op))
    let s := TLM.simulate R (column i vals u) (TLM.after R (m.member i) (h.map (TLM.EnsOp.member i)))
    e.2 = s.2 ∧ memberOutputs i e.1.outputs = s.1.outputs := by
  obtain ⟨-, hu⟩ := TLM.eref_init (R := R) i x
  obtain ⟨h1, h2⟩ := tl_after (R := R) i h hc m (hu m hm)
  have hs : Sim TLM.Uni (TLM.member i) (id : Unit → Unit) (fun _ => True) (TLM.ensemble (R.members ι) vals u)
      (TLM.simulate R (column i vals u)) :=
    Sim.bind (TLM.sim_setErf (R := R) i vals u hv) fun _ _ => Sim.bind (TLM.sim_reset i) fun _ _ => TLM.sim_run i
  obtain ⟨h3, -, -⟩ := hs _ h2
  rw [h1] at h3
  intro e s
  rw [show s = _ from h3, map_id']
  exact ⟨rfl, rfl⟩

/-- The same for impulse response ensembles. -/
theorem C107_run_impulse_response (x : IRM.Args N α) (i : ι) {m : IRM N (Ens ι α)}
    (hm : IRM.init (R.members ι) (x.shared ι) = .ok m) (h : List (IRM.EnsOp N ι α)) (hc : ∀ op ∈ h, op.complete)
    (vals : List (ι → α)) (u : Units N) (hv : ∀ f ∈ vals, ∀ j, Arith.isNaN (f j) = false) :
    let e := IRM.ensemble (R.members ι) vals u (IRM.after (R.members ι) m (h.map IRM.EnsOp.op))
    let s := IRM.simulate R (column i vals u) (IRM.after R (m.member i) (h.map (IRM.EnsOp.member i)))
    e.2 = s.2 ∧ memberOutputs i e.1.outputs = s.1.outputs := by
  obtain ⟨-, hu⟩ := IRM.eref_init (R := R) i x
  obtain ⟨h1, h2⟩ := ir_after (R := R) i h hc m (hu m hm)
  have hs : Sim IRM.Uni (IRM.member i) (id : Unit → Unit) (fun _ => True) (IRM.ensemble (R.members ι) vals u)
      (IRM.simulate R (column i vals u)) :=
    Sim.bind (IRM.sim_setErf (R := R) i vals u hv) fun _ _ => Sim.bind (IRM.sim_reset i) fun _ _ => IRM.sim_run i
  obtain ⟨h3, -, -⟩ := hs _ h2
  rw [h1] at h3
  intro e s
  rw [show s = _ from h3, map_id']
  refine ⟨rfl, ?_⟩
  have hz : ∀ a b : List (Ens ι α), (List.zipWith (· + ·) a b).map (Ens.get i) =
      List.zipWith (· + ·) (a.map (Ens.get i)) (b.map (Ens.get i)) := by
    intro a
    induction a with
    | nil => intro b; rfl
    | cons y a ih =>
      intro b
      cases b with
      | nil => rfl
      | cons z b => simp only [List.zipWith_cons_cons, List.map_cons, Ens.get_add, ih]
  simp only [memberOutputs, IRM.outputs, List.map_cons, List.map_nil, hz]
  rfl
end

/-- One member's missing value stops the whole ensemble: `reset` raises ModelStateError and changes nothing. -/
theorem C107_missing {vals : List (ι → α)} (u : Units N) {f : ι → α} (hf : f ∈ vals) {j : ι}
    (hj : Arith.isNaN (f j) = true) :
    (∀ m : TLM N (Ens ι α), m.core.erf = .set (vals.map Ens.row) u → TLM.reset m = (m, .error .modelState)) ∧
    (∀ m : IRM N (Ens ι α), m.core.erf = .set (vals.map Ens.row) u → IRM.reset m = (m, .error .modelState)) := by
  have hn : (Erf.set (vals.map Ens.row) u : Erf N (Ens ι α)).anyNaN = true := by
    simp only [Erf.anyNaN, List.any_map, List.any_eq_true]
    refine ⟨f, hf, ?_⟩
    show decide (∃ i, Arith.isNaN (f i) = true) = true
    exact decide_eq_true ⟨j, hj⟩
  exact ⟨fun m hm => TLM.reset_nan m (by rw [hm]; exact hn), fun m hm => IRM.reset_nan m (by rw [hm]; exact hn)⟩

/-- `set_drivers` refuses two-dimensional drivers and changes nothing; the attribute `erf` accepts them if the unit
converts to W/m^2. -/
theorem C107_set_drivers (vals : List (ι → α)) (u : Units N) :
    (∀ m : TLM N (Ens ι α), TLM.setDrivers (R.members ι) (rows vals u) m = (m, .error (.assertion "erf must be one-dimensional"))) ∧
    (∀ m : IRM N (Ens ι α), IRM.setDrivers (R.members ι) (rows vals u) m = (m, .error (.assertion "erf must be one-dimensional"))) ∧
    (R.compat u R.wm2 = true →
      (∀ m : TLM N (Ens ι α), (TLM.setErf (R.members ι) (rows vals u) m).2 = .ok () ∧
        (TLM.setErf (R.members ι) (rows vals u) m).1.core.erf = .set (vals.map Ens.row) u) ∧
      (∀ m : IRM N (Ens ι α), (IRM.setErf (R.members ι) (rows vals u) m).2 = .ok () ∧
        (IRM.setErf (R.members ι) (rows vals u) m).1.core.erf = .set (vals.map Ens.row) u)) := by
  refine ⟨fun m => rfl, fun m => rfl, fun h => ⟨fun m => ?_, fun m => ?_⟩⟩
  · have : Core.setErf (R.members ι) (rows vals u) m.core =
        ({ m.core with erf := .set (vals.map Ens.row) u, erfMag := some (magsIn (R.members ι) (vals.map Ens.row) u (R.members ι).wm2) }, .ok ()) := by
      unfold Core.setErf rows
      simp only
      rw [if_pos (.inr (show (R.members ι).compat u (R.members ι).wm2 = true from h))]
      rfl
    simp only [TLM.setErf, Py.onCore, this]
    exact ⟨trivial, trivial⟩
  · have : Core.setErf (R.members ι) (rows vals u) m.core =
        ({ m.core with erf := .set (vals.map Ens.row) u, erfMag := some (magsIn (R.members ι) (vals.map Ens.row) u (R.members ι).wm2) }, .ok ()) := by
      unfold Core.setErf rows
      simp only
      rw [if_pos (.inr (show (R.members ι).compat u (R.members ι).wm2 = true from h))]
      rfl
    simp only [IRM.setErf, Py.onCore, this]
    exact ⟨trivial, trivial⟩

/-! ## Examples -/

/-- an ensemble of two members that differ in `lambda0`, constructed; its first member is the default model -/
example : ∃ x : TLM.Args U0 (Ens Bool XR), x.member false = TLM.defaultArgs U0.reg ∧
    (∃ m, TLM.init (U0.reg.members Bool) x = .ok m) ∧ x.member true ≠ x.member false := by
  let f : Arg U0 XR → Arg U0 (Ens Bool XR) := Arg.shared Bool
  let y := TLM.defaultArgs U0.reg
  let x : TLM.Args U0 (Ens Bool XR) := ⟨f y.du, f y.dl,
    .qty ⟨.row fun b => if b then .fin 2 else (Arith.dec 374 2 / Arith.ofNat 3 : XR), U0.reg.wm2c⟩, f y.a, f y.efficacy, f y.eta, f y.deltaT⟩
  have hD : (U0.reg.members Bool).Dimensional :=
    { Dim := U0.lawful.Dim, dim := U0.lawful.dim, compat_iff := U0.lawful.compat_iff, dim_joule := U0.lawful.dim_joule
      dim_year := U0.lawful.dim_year, dim_month := U0.lawful.dim_month }
  refine ⟨x, rfl, ⟨_, TLM.init_good hD (Or.inl rfl) (Or.inl rfl) (Or.inl rfl) (Or.inl rfl) (Or.inl rfl) (Or.inl rfl)
    (Or.inl rfl)⟩, fun h => ?_⟩
  have h := congrArg TLM.Args.lambda0 h
  have h : Arg.qty (⟨.fin 2, U0.reg.wm2c⟩ : Qty U0 XR) = .qty ⟨(Arith.dec 374 2 / Arith.ofNat 3 : XR), U0.reg.wm2c⟩ := h
  have h := congrArg Qty.mag (Arg.qty.inj h)
  simp only [XR.dec_eq, XR.ofNat_eq] at h
  rw [XR.fin_div (by norm_num)] at h
  have h := XR.fin_inj.mp h
  norm_num at h

/-- a complete history of such a program, and one that is not -/
example : (∀ op ∈ ([.setErf [fun b => if b then .fin 1 else .fin 2] U0.reg.wm2, .reset, .run] : List (TLM.EnsOp U0 Bool XR)),
    op.complete) ∧ ¬ (TLM.EnsOp.setErf [fun b => if b then .fin 1 else .nan] U0.reg.wm2 : TLM.EnsOp U0 Bool XR).complete := by
  constructor
  · intro op h
    simp only [List.mem_cons, List.not_mem_nil, or_false] at h
    rcases h with rfl | rfl | rfl
    · intro f hf i
      simp only [List.mem_singleton] at hf
      subst hf
      cases i <;> rfl
    · trivial
    · trivial
  · intro h
    have := h _ (List.mem_singleton_self _) false
    cases this

end TwoLayer

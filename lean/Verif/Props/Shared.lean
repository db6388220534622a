import Verif.Proofs.Shared
import Verif.Props.Units

/-!
# C99: sharing Quantities between objects and converting them in place

A program (`Event`s) starts after `import`.  It creates Quantities, constructs objects from them (several objects may get
the same Quantity; the defaults of the constructors are shared anyway), assigns parameters, calls methods, runs
scenarios, and converts Quantities in place with pint's `ito`.  Exceptions are caught.
-/

set_option linter.unusedSimpArgs false
set_option linter.unusedSectionVars false

namespace TwoLayer
variable {N : Type} [Fintype N] [DecidableEq N] {R : Registry N XR}

private theorem inv_prog (L : R.Lawful) (p : List (Event N XR)) : ((World.imported R).execs R p).Inv R :=
  World.inv_execs L p (World.inv_imported R)

/-- Whatever the program did, each two-layer object is one that a program without sharing and in-place conversion can
hold: what the other theorems say of such objects holds of it. -/
theorem C99_reachable_two_layer (L : R.Lawful) (p : List (Event N XR)) {i : Nat} {m : TLM N XR}
    (h : ((World.imported R).execs R p).twoLayer R i = some m) : TLM.Reachable R m := by
  obtain ⟨o, ho, rfl⟩ := Option.map_eq_some_iff.mp h
  exact ((inv_prog L p).1 o (List.mem_of_getElem? ho)).2

/-- The same for impulse response objects. -/
theorem C99_reachable_impulse_response (L : R.Lawful) (p : List (Event N XR)) {i : Nat} {m : IRM N XR}
    (h : ((World.imported R).execs R p).impulseResponse R i = some m) : IRM.Reachable R m := by
  obtain ⟨o, ho, rfl⟩ := Option.map_eq_some_iff.mp h
  exact ((inv_prog L p).2 o (List.mem_of_getElem? ho)).2

/-- conversions leave objects alone, and their heap valid -/
private theorem itos {K σ : Type} [Fintype K] [DecidableEq K] {C : Sharing N XR K σ} {P : σ → Prop} (L : R.Lawful)
    (LC : C.Laws R P) (js : List (Nat × Units N)) : ∀ {heap : List (Qty N XR)} {o : Obj K σ},
    (∀ k, o.refs k < heap.length) →
    ∃ q, C.read (js.foldl (fun h x => itoHeap R h x.1 x.2) heap) o = C.withParams (C.read heap o) q ∧
      ∀ k, Same R (C.param (C.read heap o) k) (q k) := by
  induction js with
  | nil => intro heap o _; exact ⟨_, (LC.self _).symm, fun k => Same.refl _⟩
  | cons x js ih =>
    intro heap o h
    obtain ⟨q, h1, h2⟩ := LC.read_ito h x.1 x.2
    obtain ⟨q', h1', h2'⟩ := ih (heap := itoHeap R heap x.1 x.2) (o := o) (by rw [itoHeap_length]; exact h)
    refine ⟨q', ?_, fun k => ?_⟩
    · rw [List.foldl_cons, h1', h1, LC.twice]
    · refine (h2 k).trans L ?_
      have := h2' k
      rwa [h1, LC.get] at this

private theorem execs_itos (w : World N XR) (js : List (Nat × Units N)) :
    w.execs R (js.map fun x => .ito x.1 x.2) = { w with heap := js.foldl (fun h x => itoHeap R h x.1 x.2) w.heap } := by
  induction js generalizing w with
  | nil => rfl
  | cons x js ih =>
    show (w.exec R (.ito x.1 x.2)).execs R (js.map fun x => .ito x.1 x.2) = _
    rw [ih]; rfl

private theorem execs_append (w : World N XR) (p p' : List (Event N XR)) :
    w.execs R (p ++ p') = (w.execs R p).execs R p' := List.foldl_append

/-- Converting Quantities in place, whichever they are: every two-layer object keeps the value of each parameter (in
whatever unit it is expressed), and all its methods, called in any order, have the outcomes and outputs they would have
had. -/
theorem C99_two_layer (L : R.Lawful) (p : List (Event N XR)) (js : List (Nat × Units N)) {i : Nat} {m : TLM N XR}
    (h : ((World.imported R).execs R p).twoLayer R i = some m) :
    ∃ m', ((World.imported R).execs R (p ++ js.map fun x => .ito x.1 x.2)).twoLayer R i = some m' ∧
      (∀ k u, ((TLM.sharing R).param m' k).toUnit R u = ((TLM.sharing R).param m k).toUnit R u) ∧
      ∀ calls : List (Method N XR),
        (callAll (calls.map (TLM.sharing R).method) m').2 = (callAll (calls.map (TLM.sharing R).method) m).2 ∧
        (callAll (calls.map (TLM.sharing R).method) m').1.outputs =
          (callAll (calls.map (TLM.sharing R).method) m).1.outputs := by
  obtain ⟨o, ho, rfl⟩ := Option.map_eq_some_iff.mp h
  obtain ⟨q, h1, h2⟩ := itos L (TLM.sharing_laws L) js ((inv_prog L p).1 o (List.mem_of_getElem? ho)).1
  refine ⟨(TLM.sharing R).withParams ((TLM.sharing R).read ((World.imported R).execs R p).heap o) q, ?_, ?_, ?_⟩
  · rw [execs_append, execs_itos]
    exact Option.map_eq_some_iff.mpr ⟨o, ho, h1⟩
  · intro k u
    rw [(TLM.sharing_laws L).get]
    exact (h2 k).toUnit L u
  · intro calls
    rw [TLM.callAll_withParams]
    exact ⟨rfl, rfl⟩

/-- Converting Quantities in place, whichever they are: every impulse response object keeps the value of each parameter,
and, if the run succeeds before and after, its temperatures. -/
theorem C99_impulse_response (L : R.Lawful) (p : List (Event N XR)) (js : List (Nat × Units N)) {i : Nat} {m : IRM N XR}
    (h : ((World.imported R).execs R p).impulseResponse R i = some m) :
    ∃ m', ((World.imported R).execs R (p ++ js.map fun x => .ito x.1 x.2)).impulseResponse R i = some m' ∧
      (∀ k u, ((IRM.sharing R).param m' k).toUnit R u = ((IRM.sharing R).param m k).toUnit R u) ∧
      ∀ par d n F T1 T2 U T1' T2' U', m.Phys R par → IsForcing R d n F → IRM.Produces R m d n T1 T2 U →
        IRM.Produces R m' d n T1' T2' U' → ∀ i < n, T1 i = T1' i ∧ T2 i = T2' i := by
  obtain ⟨o, ho, rfl⟩ := Option.map_eq_some_iff.mp h
  obtain ⟨q, h1, h2⟩ := itos L (IRM.sharing_laws L) js ((inv_prog L p).2 o (List.mem_of_getElem? ho)).1
  have hex : ((World.imported R).execs R (p ++ js.map fun x => .ito x.1 x.2)).impulseResponse R i =
      some ((IRM.sharing R).withParams ((IRM.sharing R).read ((World.imported R).execs R p).heap o) q) := by
    rw [execs_append, execs_itos]
    exact Option.map_eq_some_iff.mpr ⟨o, ho, h1⟩
  refine ⟨_, hex, ?_, ?_⟩
  · intro k u
    rw [(IRM.sharing_laws L).get]
    exact (h2 k).toUnit L u
  · intro par d n F T1 T2 U T1' T2' U' hp hd hP hP'
    have hp' : ((IRM.sharing R).withParams ((IRM.sharing R).read ((World.imported R).execs R p).heap o) q).Phys R par :=
      ⟨((h2 .q1).toUnit L _).trans hp.q1, ((h2 .q2).toUnit L _).trans hp.q2, ((h2 .d1).toUnit L _).trans hp.d1,
        ((h2 .d2).toUnit L _).trans hp.d2, ((h2 .efficacy).toUnit L _).trans hp.efficacy, ((h2 .deltaT).toUnit L _).trans hp.dt⟩
    exact C44_temperatures L (C99_reachable_impulse_response L p h) (C99_reachable_impulse_response L _ hex) hp hp'
      hd hd hP hP'

/-- When an impulse response object still runs after Quantities were converted in place: always if its efficacy is 1; otherwise
exactly if `q2` and `efficacy` are now in units that multiply to `delta_degC / (W/m^2)`.  (The right-hand side is about the
units after the conversion.) -/
theorem C99_impulse_response_success (L : R.Lawful) (p : List (Event N XR)) (js : List (Nat × Units N)) {i : Nat} {m : IRM N XR}
    (h : ((World.imported R).execs R p).impulseResponse R i = some m) :
    ∃ m', ((World.imported R).execs R (p ++ js.map fun x => .ito x.1 x.2)).impulseResponse R i = some m' ∧
      ∀ par d n F, m.Phys R par → par.Boxes → 1 < n → IsForcing R d n F →
        ((IRM.simulate R d m').2 = .ok () ↔ par.e = 1 ∨ m'.q2.unit + m'.efficacy.unit = R.cwm2) := by
  obtain ⟨m', hex, hpar, -⟩ := C99_impulse_response L p js h
  refine ⟨m', hex, fun par d n F hp ho hn hd => ?_⟩
  have hp' : m'.Phys R par := ⟨(hpar .q1 _).trans hp.q1, (hpar .q2 _).trans hp.q2, (hpar .d1 _).trans hp.d1,
    (hpar .d2 _).trans hp.d2, (hpar .efficacy _).trans hp.efficacy, (hpar .deltaT _).trans hp.dt⟩
  exact (C45_iff L (C99_reachable_impulse_response L _ hex) hp' ho hn hd).1

/-! ## What is not preserved -/

/-- The heat uptake of an impulse response object is not preserved, even if nobody touches it: a program constructs two
objects with default arguments, and converts the `q1` of the *first* in place.  The second, run with the same drivers as
before, succeeds with another heat uptake. -/
theorem C99_shared_default : ∃ (m m' : IRM U0 XR) (d : DArg U0 XR) (T1 T2 U T1' T2' U' : ℕ → ℝ),
    ((World.imported U0.reg).execs U0.reg [.ir (.create IPar.default), .ir (.create IPar.default)]).impulseResponse
      U0.reg 1 = some m ∧
    ((World.imported U0.reg).execs U0.reg [.ir (.create IPar.default), .ir (.create IPar.default),
      .ito (IPar.default .q1) U0.milliU]).impulseResponse U0.reg 1 = some m' ∧
    IsForcing U0.reg d 3 (fun _ => 1) ∧
    IRM.Produces U0.reg m d 3 T1 T2 U ∧ IRM.Produces U0.reg m' d 3 T1' T2' U' ∧ U 2 ≠ U' 2 := by
  obtain ⟨m₀, h₀, hp₀, hu₀, -⟩ := IRM.default_exists U0.lawful
  have hinit : (IRM.sharing U0.reg).init (fun k => ((World.imported U0.reg).heap[IPar.default k]?).getD ⟨Arith.nan, 0⟩) =
      .ok m₀ := h₀
  have hlt : ∀ k, IPar.default k < (World.imported U0.reg).heap.length := by
    intro k; cases k <;> simp [IPar.default, World.imported]
  have hw : ∀ objs, (IRM.sharing U0.reg).act (World.imported U0.reg).heap objs (.create IPar.default) =
      ((World.imported U0.reg).heap, objs ++ [⟨IPar.default, m₀⟩]) := by
    intro objs
    simp only [Sharing.act]
    rw [if_pos hlt, hinit]
  have hexec : (World.imported U0.reg).execs U0.reg [.ir (.create IPar.default), .ir (.create IPar.default)] =
      ⟨(World.imported U0.reg).heap, [], [⟨IPar.default, m₀⟩, ⟨IPar.default, m₀⟩]⟩ := by
    simp only [World.execs, List.foldl_cons, List.foldl_nil, World.exec, hw]
    rfl
  have hb : ((World.imported U0.reg).execs U0.reg [.ir (.create IPar.default), .ir (.create IPar.default)]).impulseResponse
      U0.reg 1 = some m₀ := by
    rw [hexec]
    show some ((IRM.sharing U0.reg).read (World.imported U0.reg).heap ⟨IPar.default, m₀⟩) = _
    rw [(IRM.sharing_laws U0.lawful).read_eq]
    intro k
    have := ((IRM.sharing_laws U0.lawful).init _ _ hinit).2
    show (World.imported U0.reg).heap[IPar.default k]? = some ((IRM.sharing U0.reg).param m₀ k)
    simp [this, hlt k]
  have hd := forcing_exists (R := U0.reg) 3 (fun _ => 1)
  obtain ⟨m', hm', hval, -⟩ := C99_impulse_response U0.lawful _ [(IPar.default .q1, U0.milliU)] hb
  have hp' : m'.Phys U0.reg IRPar.default :=
    ⟨(hval .q1 _).trans hp₀.q1, (hval .q2 _).trans hp₀.q2, (hval .d1 _).trans hp₀.d1, (hval .d2 _).trans hp₀.d2,
      (hval .efficacy _).trans hp₀.efficacy, (hval .deltaT _).trans hp₀.dt⟩
  have hunit : m'.q1.unit = U0.milliU := by
    have hm'' := hm'
    rw [execs_append, hexec] at hm''
    have hto : ∃ x, (Qty.mk (Arith.dec 3 1) U0.reg.cwm2 : Qty U0 XR).toUnit U0.reg U0.milliU = .ok ⟨x, U0.milliU⟩ := by
      have h1 := (U0.lawful.isNum_iff.mp (U0.milli_num 1)).2
      exact ⟨_, toUnit_ok ((U0.lawful.unitOk_iff _ _).mpr h1.symm)⟩
    obtain ⟨x, hx⟩ := hto
    have hh : itoHeap U0.reg (World.imported U0.reg).heap 7 U0.milliU = (World.imported U0.reg).heap.set 7 ⟨x, U0.milliU⟩ := by
      unfold itoHeap
      rw [show (World.imported U0.reg).heap[7]? = some (Qty.mk (Arith.dec 3 1) U0.reg.cwm2 : Qty U0 XR) from rfl]
      simp only [hx]
    have : m' = (IRM.sharing U0.reg).read ((World.imported U0.reg).heap.set 7 ⟨x, U0.milliU⟩) ⟨IPar.default, m₀⟩ := by
      rw [← hh]; exact (Option.some.inj hm'').symm
    rw [this]; rfl
  obtain ⟨T1, T2, U, T1', T2', U', P, P', hne⟩ := IRM.q1_unit_matters
    (C99_reachable_impulse_response U0.lawful _ hb) (C99_reachable_impulse_response U0.lawful _ hm') hp₀ hp'
    (by rw [hu₀]; exact isNum_self _ _) (by rw [hunit]; exact U0.milli_num 1) hd
  exact ⟨m₀, m', _, T1, T2, U, T1', T2', U', hb, hm', hd, P, P', hne⟩

/-! ## The default arguments -/

section
variable {N : Type} [Fintype N] [DecidableEq N] {R : Registry N XR}

theorem itoHeap_ne {heap : List (Qty N XR)} {r i : Nat} {v : Units N} (h : r ≠ i) : (itoHeap R heap r v)[i]? = heap[i]? := by
  unfold itoHeap
  split
  · rfl
  · split
    · exact List.getElem?_set_ne h
    · rfl

theorem default_worlds (L : R.Lawful) : ∃ m m', TLM.init R (TLM.defaultArgs R) = .ok m ∧ IRM.init R (IRM.defaultArgs R) = .ok m' ∧
    m.Phys R TLPar.default ∧ m'.Phys R IRPar.default ∧
    (World.imported R).execs R [.tl (.create TPar.default), .ir (.create IPar.default)] =
      ⟨(World.imported R).heap, [⟨TPar.default, m⟩], [⟨IPar.default, m'⟩]⟩ ∧
    (∀ k, (World.imported R).heap[TPar.default k]? = some ((TLM.sharing R).param m k)) ∧
    (∀ k, (World.imported R).heap[IPar.default k]? = some ((IRM.sharing R).param m' k)) := by
  obtain ⟨m', h', hp', -⟩ := IRM.default_exists L
  obtain ⟨m, h, hp⟩ := TLM.default_exists L
  have ht : (TLM.sharing R).init (fun k => ((World.imported R).heap[TPar.default k]?).getD ⟨Arith.nan, 0⟩) = .ok m := h
  have hi : (IRM.sharing R).init (fun k => ((World.imported R).heap[IPar.default k]?).getD ⟨Arith.nan, 0⟩) = .ok m' := h'
  have lt : ∀ k, TPar.default k < (World.imported R).heap.length := by
    intro k; cases k <;> simp [TPar.default, World.imported]
  have li : ∀ k, IPar.default k < (World.imported R).heap.length := by
    intro k; cases k <;> simp [IPar.default, World.imported]
  refine ⟨m, m', h, h', hp, hp', ?_, fun k => ?_, fun k => ?_⟩
  · simp only [World.execs, List.foldl_cons, List.foldl_nil, World.exec, Sharing.act]
    rw [if_pos lt, ht]
    simp only []
    rw [if_pos li, hi]
    rfl
  · have := ((TLM.sharing_laws L).init _ _ ht).2
    rw [congrFun this k]
    cases k <;> rfl
  · have := ((IRM.sharing_laws L).init _ _ hi).2
    rw [congrFun this k]
    cases k <;> rfl

/-- **C99.** `TwoLayerModel()` and `ImpulseResponseModel()` right after `import` are what the constructors make of the
documented defaults (`TLPar.default`, `IRPar.default` in `Spec/`). -/
theorem C99_default_objects (L : R.Lawful) :
    (∃ m, TLM.init R (TLM.defaultArgs R) = .ok m ∧ m.Phys R TLPar.default ∧
      ((World.imported R).execs R [.tl (.create TPar.default), .ir (.create IPar.default)]).twoLayer R 0 = some m) ∧
    ∃ m', IRM.init R (IRM.defaultArgs R) = .ok m' ∧ m'.Phys R IRPar.default ∧
      ((World.imported R).execs R [.tl (.create TPar.default), .ir (.create IPar.default)]).impulseResponse R 0 = some m' := by
  obtain ⟨m, m', h, h', hp, hp', he, ht, hi⟩ := default_worlds L
  rw [he]
  exact ⟨⟨m, h, hp, congrArg some ((TLM.sharing_laws L).read_eq ht)⟩, ⟨m', h', hp', congrArg some ((IRM.sharing_laws L).read_eq hi)⟩⟩

/-- **C99.** Every parameter of either class has a default Quantity of its own: converting one in place leaves the default
object of the other class as it is, and of its own class changes that parameter at most. -/
theorem C99_defaults_separate (L : R.Lawful) (v : Units N) :
    (∀ k, ∃ m m₁ m', ((World.imported R).execs R [.tl (.create TPar.default), .ir (.create IPar.default)]).twoLayer R 0 = some m ∧
      ((World.imported R).execs R [.tl (.create TPar.default), .ir (.create IPar.default)]).impulseResponse R 0 = some m' ∧
      ((World.imported R).execs R [.tl (.create TPar.default), .ir (.create IPar.default),
        .ito (TPar.default k) v]).twoLayer R 0 = some m₁ ∧
      ((World.imported R).execs R [.tl (.create TPar.default), .ir (.create IPar.default),
        .ito (TPar.default k) v]).impulseResponse R 0 = some m' ∧
      ∀ j ≠ k, (TLM.sharing R).param m₁ j = (TLM.sharing R).param m j) ∧
    (∀ k, ∃ m m' m₁', ((World.imported R).execs R [.tl (.create TPar.default), .ir (.create IPar.default)]).twoLayer R 0 = some m ∧
      ((World.imported R).execs R [.tl (.create TPar.default), .ir (.create IPar.default)]).impulseResponse R 0 = some m' ∧
      ((World.imported R).execs R [.tl (.create TPar.default), .ir (.create IPar.default),
        .ito (IPar.default k) v]).twoLayer R 0 = some m ∧
      ((World.imported R).execs R [.tl (.create TPar.default), .ir (.create IPar.default),
        .ito (IPar.default k) v]).impulseResponse R 0 = some m₁' ∧
      ∀ j ≠ k, (IRM.sharing R).param m₁' j = (IRM.sharing R).param m' j) := by
  obtain ⟨m, m', h, h', -, -, he, ht, hi⟩ := default_worlds L
  have split : ∀ r, (World.imported R).execs R [.tl (.create TPar.default), .ir (.create IPar.default), .ito r v] =
      ⟨itoHeap R (World.imported R).heap r v, [⟨TPar.default, m⟩], [⟨IPar.default, m'⟩]⟩ := by
    intro r
    have := execs_append (R := R) (World.imported R) [.tl (.create TPar.default), .ir (.create IPar.default)] [.ito r v]
    rw [he] at this
    exact this
  have n1 : ∀ j k, TPar.default k ≠ IPar.default j := by intro j k; cases j <;> cases k <;> decide
  have n2 : ∀ j k, j ≠ k → TPar.default k ≠ TPar.default j := by intro j k; cases j <;> cases k <;> decide
  have n3 : ∀ j k, j ≠ k → IPar.default k ≠ IPar.default j := by intro j k; cases j <;> cases k <;> decide
  refine ⟨fun k => ⟨m, (TLM.sharing R).read (itoHeap R (World.imported R).heap (TPar.default k) v) ⟨TPar.default, m⟩, m', ?_, ?_, ?_, ?_, ?_⟩,
    fun k => ⟨m, m', (IRM.sharing R).read (itoHeap R (World.imported R).heap (IPar.default k) v) ⟨IPar.default, m'⟩, ?_, ?_, ?_, ?_, ?_⟩⟩
  · rw [he]; exact congrArg some ((TLM.sharing_laws L).read_eq ht)
  · rw [he]; exact congrArg some ((IRM.sharing_laws L).read_eq hi)
  · rw [split]; rfl
  · rw [split]
    refine congrArg some ((IRM.sharing_laws L).read_eq fun j => ?_)
    show (itoHeap R (World.imported R).heap (TPar.default k) v)[IPar.default j]? = _
    rw [itoHeap_ne (n1 j k)]; exact hi j
  · intro j hj
    unfold Sharing.read
    rw [(TLM.sharing_laws L).get]
    show ((itoHeap R (World.imported R).heap (TPar.default k) v)[TPar.default j]?).getD _ = _
    rw [itoHeap_ne (n2 j k hj), ht j]; rfl
  · rw [he]; exact congrArg some ((TLM.sharing_laws L).read_eq ht)
  · rw [he]; exact congrArg some ((IRM.sharing_laws L).read_eq hi)
  · rw [split]
    refine congrArg some ((TLM.sharing_laws L).read_eq fun j => ?_)
    show (itoHeap R (World.imported R).heap (IPar.default k) v)[TPar.default j]? = _
    rw [itoHeap_ne (n1 k j).symm]; exact ht j
  · rw [split]; rfl
  · intro j hj
    unfold Sharing.read
    rw [(IRM.sharing_laws L).get]
    show ((itoHeap R (World.imported R).heap (IPar.default k) v)[IPar.default j]?).getD _ = _
    rw [itoHeap_ne (n3 j k hj), hi j]; rfl
end

/-- A program whose two two-layer objects share one depth Quantity and the other defaults; the depth is then converted to
km through one of them.  Both objects exist, before and after (`C99_two_layer`). -/
example : ∃ m₀ m₁, ∀ j : Fin 2, ((World.imported U0.reg).execs U0.reg
    [.quantity ⟨.fin 60, U0.reg.m⟩, .tl (.create (Function.update TPar.default .du 13)),
      .tl (.create (Function.update TPar.default .du 13))]).twoLayer U0.reg j = some m₀ ∧
    ((World.imported U0.reg).execs U0.reg
    ([.quantity ⟨.fin 60, U0.reg.m⟩, .tl (.create (Function.update TPar.default .du 13)),
      .tl (.create (Function.update TPar.default .du 13))] ++ [(13, u1 U0.kilometer)].map fun x => .ito x.1 x.2)).twoLayer
        U0.reg j = some m₁ := by
  set heap := (World.imported U0.reg).heap ++ [⟨.fin 60, U0.reg.m⟩] with hheap
  set ρ := Function.update TPar.default .du 13 with hρ
  have hlt : ∀ k, ρ k < heap.length := by
    intro k; cases k <;> simp [hρ, TPar.default, World.imported, hheap, Function.update]
  obtain ⟨m, hm⟩ : ∃ m, (TLM.sharing U0.reg).init (fun k => (heap[ρ k]?).getD ⟨Arith.nan, 0⟩) = .ok m :=
    ⟨_, TLM.init_good U0.lawful.toDimensional (Or.inl rfl) (Or.inl rfl) (Or.inl rfl) (Or.inl rfl) (Or.inl rfl) (Or.inl rfl)
      (Or.inl rfl)⟩
  have hw : ∀ objs, (TLM.sharing U0.reg).act heap objs (.create ρ) = (heap, objs ++ [⟨ρ, m⟩]) := by
    intro objs
    simp only [Sharing.act]
    rw [if_pos hlt, hm]
  have hexec : (World.imported U0.reg).execs U0.reg [.quantity ⟨.fin 60, U0.reg.m⟩, .tl (.create ρ), .tl (.create ρ)] =
      ⟨heap, [⟨ρ, m⟩, ⟨ρ, m⟩], []⟩ := by
    simp only [World.execs, List.foldl_cons, List.foldl_nil, World.exec]
    rw [← hheap, hw, hw]
    rfl
  have hb : ∀ j : Fin 2, ((World.imported U0.reg).execs U0.reg
      [.quantity ⟨.fin 60, U0.reg.m⟩, .tl (.create ρ), .tl (.create ρ)]).twoLayer U0.reg j =
      some ((TLM.sharing U0.reg).read heap ⟨ρ, m⟩) := by
    rw [hexec]; intro j; fin_cases j <;> rfl
  refine ⟨_, (TLM.sharing U0.reg).read (itoHeap U0.reg heap 13 (u1 U0.kilometer)) ⟨ρ, m⟩, fun j => ⟨hb j, ?_⟩⟩
  rw [execs_append, hexec]
  fin_cases j <;> rfl

end TwoLayer

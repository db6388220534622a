import Verif.Proofs.InterruptRun

/-! # Interrupted assignments of parameters -/

set_option linter.unusedSimpArgs false
set_option linter.unusedSectionVars false

namespace TwoLayer
namespace Tr
variable {σ β γ κ : Type}

/-- the last object a method passes through is the one it leaves behind -/
def Ends (x : Tr σ β) : Prop := ∀ s, (x.exec s).1.getLast?.getD s = (x.exec s).2.1

namespace Ends
theorem pure (a : β) : Ends (Pure.pure a : Tr σ β) := fun _ => rfl
theorem get : Ends (Tr.get : Tr σ σ) := fun _ => rfl
theorem throw (e : Err) : Ends (Tr.throw e : Tr σ β) := fun _ => rfl
theorem lift (x : Except Err β) : Ends (Tr.lift x : Tr σ β) := fun _ => rfl
theorem assign (g : σ → σ) : Ends (Tr.assign g) := fun _ => rfl
theorem bind {x : Tr σ β} {g : β → Tr σ γ} (hx : Ends x) (hg : ∀ a, Ends (g a)) : Ends (x >>= g) := by
  intro s
  have h1 := hx s
  rw [exec_bind]
  rcases hx' : x.exec s with ⟨l, s', e | a⟩ <;> rw [hx'] at h1
  · exact h1
  · have h2 := hg a s'
    simp only at h1 ⊢
    rw [← h2, List.getLast?_append]
    cases ((g a).exec s').1.getLast? with
    | none => exact h1
    | some t => rfl
theorem times {x : Tr σ Unit} (hx : Ends x) (k : Nat) : Ends (Tr.times x k) := by
  induction k with
  | zero => exact pure ()
  | succ k ih => exact bind hx fun _ => ih
theorem ite {c : Prop} [Decidable c] {x y : Tr σ β} (hx : Ends x) (hy : Ends y) : Ends (if c then x else y) := by
  split
  · exact hx
  · exact hy
theorem onCore {g : σ → κ} {p : σ → κ → σ} {x : Tr κ β} (hg : ∀ s c, g (p s c) = c) (hp : ∀ s c c', p (p s c) c' = p s c')
    (hs : ∀ s, p s (g s) = s) (hx : Ends x) : Ends (Tr.onCore g p x) := by
  intro s
  rw [exec_onCore hg hp hs, ← hx (g s), List.getLast?_map]
  cases (x.exec (g s)).1.getLast? with
  | none => exact (hs s).symm
  | some t => rfl
theorem cut {x : Tr σ β} (hx : Ends x) {s : σ} {k : Nat} (hk : (x.exec s).1.length ≤ k) : x.cut k s = (x.exec s).2.1 := by
  unfold Tr.cut
  rcases hk.lt_or_eq with h | rfl
  · rw [List.getElem?_eq_none (by simp; omega)]; rfl
  · rw [← hx s]
    rcases hl : (x.exec s).1 with _ | ⟨a, l⟩
    · rfl
    · rw [List.length_cons, List.getElem?_cons_succ,
        show (a :: l)[l.length]? = (a :: l).getLast? by rw [List.getLast?_eq_getElem?]; rfl]
      simp [List.getLast?_cons]
end Ends

/-- where an assignment of a parameter with its cached number can be interrupted -/
theorem cut_pair (c : Except Err β) (f g : β → σ → σ) (k : Nat) (s : σ) :
    let x : Tr σ Unit := do let q ← lift c; assign (f q); assign (g q)
    x.cut k s = s ∨ ∃ q, c = .ok q ∧ (x.cut k s = f q s ∨ x.cut k s = g q (f q s)) := by
  cases c with
  | error e =>
    left
    rcases k with _ | k <;> rfl
  | ok q =>
    rcases k with _ | _ | _ | k
    · exact Or.inl rfl
    · exact Or.inr ⟨q, rfl, Or.inl rfl⟩
    · exact Or.inr ⟨q, rfl, Or.inr rfl⟩
    · exact Or.inr ⟨q, rfl, Or.inr rfl⟩

theorem cut_onCore {g : σ → κ} {p : σ → κ → σ} {x : Tr κ β} (hg : ∀ s c, g (p s c) = c)
    (hp : ∀ s c c', p (p s c) c' = p s c') (hs : ∀ s, p s (g s) = s) (k : Nat) (s : σ) :
    (onCore g p x).cut k s = p s (x.cut k (g s)) := by
  unfold cut
  rw [exec_onCore hg hp hs]
  rcases k with _ | k
  · exact (hs s).symm
  · simp only [List.getElem?_cons_succ, List.getElem?_map]
    cases (x.exec (g s)).1[k]? <;> rfl
end Tr

variable {N α σ : Type} [Fintype N] [DecidableEq N] [Arith α]

theorem Core.setDeltaTT_ends (R : Registry N α) (u : Units N) (v : Arg N α) : Tr.Ends (Core.setDeltaTT R u v) :=
  .bind (.lift _) fun _ => .bind (.assign _) fun _ => .assign _

theorem Core.setErfT_ends (R : Registry N α) (v : DArg N α) : Tr.Ends (Core.setErfT R v) := by
  cases v with
  | bare a => exact .throw _
  | qty a u => exact .ite (.bind (.assign _) fun _ => .assign _) (.throw _)

theorem Core.setDriversT_ends (R : Registry N α) (v : DArg N α) : Tr.Ends (Core.setDriversT R v) := by
  cases v <;> exact .ite (.throw _) (Core.setErfT_ends R _)

section
variable [DecidableEq α] {V : TVariant N α σ} {R : Registry N α}

theorem runRowT_ends (h1 : ∀ d, Tr.Ends (V.setDrivers d)) (h2 : Tr.Ends V.reset) (h3 : Tr.Ends V.run) (i : Nat)
    (row : Row α) : Tr.Ends (runRowT V R i row) := by
  unfold runRowT
  cases hg : row.info.get "unit" with
  | none => exact .throw _
  | some v =>
    cases v with
    | num x => exact .throw _
    | int n => exact .throw _
    | str us =>
      simp only
      cases hp : R.parse us with
      | none => exact .throw _
      | some u =>
        exact .bind (h1 _) fun _ => .bind h2 fun _ => .bind h3 fun _ => .bind .get fun _ =>
          .ite (.throw _) (.ite (.throw _) (.pure _))

theorem runRowsT_ends (h1 : ∀ d, Tr.Ends (V.setDrivers d)) (h2 : Tr.Ends V.reset) (h3 : Tr.Ends V.run)
    (rows : List (Row α)) : ∀ i, Tr.Ends (runRowsT V R i rows) := by
  induction rows with
  | nil => exact fun i => .pure _
  | cons r rest ih =>
    exact fun i => .bind (runRowT_ends h1 h2 h3 i r) fun _ => .bind (ih (i + 1)) fun _ => .pure _

theorem runScenariosT_ends (h0 : ∀ q, Tr.Ends (V.setDeltaT q)) (h1 : ∀ d, Tr.Ends (V.setDrivers d))
    (h2 : Tr.Ends V.reset) (h3 : Tr.Ends V.run) (dv : String) (scen : ScmRun α) :
    Tr.Ends (runScenariosT V R dv scen) := by
  unfold runScenariosT
  exact .bind .get fun _ => .ite (.throw _) (.bind (.lift _) fun _ => .bind (h0 _) fun _ => .ite (.throw _)
    (.bind (runRowsT_ends h1 h2 h3 _ 0) fun _ => .pure _))
end

namespace TLM
variable (R : Registry N α)

theorem resetT_ends : Tr.Ends (resetT (N := N) (α := α)) :=
  .bind .get fun _ => .ite (.throw _) (.bind (.assign _) fun _ => .bind .get fun _ => .bind (.lift _) fun _ => .bind (.assign _) fun _ => .bind .get fun _ => .bind (.lift _) fun _ => .bind (.assign _) fun _ => .bind .get fun _ => .bind (.lift _) fun _ => .assign _)

theorem stepT_ends : Tr.Ends (stepT (N := N) (α := α)) := by
  refine .bind (.bind .get fun m => .ite (.assign _) (.bind .get fun _ => .assign _)) fun _ => .bind .get fun m' => .ite ?_ ?_
  · exact .bind .get fun _ => .bind (.lift _) fun _ => .bind (.lift _) fun _ => .bind (.assign _) fun _ => .bind .get fun _ => .bind (.lift _) fun _ => .bind (.lift _) fun _ => .bind (.assign _) fun _ => .bind .get fun _ => .bind (.lift _) fun _ => .bind (.lift _) fun _ => .assign _
  · exact .bind .get fun _ => .bind (.lift _) fun _ => .bind (.lift _) fun _ => .bind (.lift _) fun _ => .bind (.lift _) fun _ => .bind (.lift _) fun _ => .bind (.assign _) fun _ => .bind .get fun _ => .bind (.lift _) fun _ => .bind (.lift _) fun _ => .bind (.lift _) fun _ => .bind (.lift _) fun _ => .bind (.assign _) fun _ => .bind .get fun _ => .bind (.lift _) fun _ => .bind (.lift _) fun _ => .bind (.lift _) fun _ => .bind (.lift _) fun _ => .bind (.lift _) fun _ => .bind (.lift _) fun _ => .assign _

theorem runT_ends : Tr.Ends (runT (N := N) (α := α)) := .bind .get fun _ => .times stepT_ends _

theorem callT_ends [DecidableEq α] (op : Op N α) : Tr.Ends (callT R op) := by
  have hd : ∀ v, Tr.Ends (setDriversT R v) := fun v => .onCore (fun _ _ => rfl) (fun _ _ _ => rfl) (fun _ => rfl) (Core.setDriversT_ends R v)
  have ht : ∀ v, Tr.Ends (setDeltaTT R v) := fun v => .onCore (fun _ _ => rfl) (fun _ _ _ => rfl) (fun _ => rfl) (Core.setDeltaTT_ends R _ v)
  cases op <;> first
    | exact hd _
    | exact ht _
    | exact resetT_ends
    | exact stepT_ends
    | exact runT_ends
    | exact .onCore (fun _ _ => rfl) (fun _ _ _ => rfl) (fun _ => rfl) (Core.setErfT_ends R _)
    | exact .bind (.lift _) fun _ => .bind (.assign _) fun _ => .assign _
    | exact .bind (.lift _) fun _ => .bind (.assign _) fun _ => .bind (.assign _) fun _ => .bind .get fun _ =>
        .bind (.lift _) fun _ => .assign _
    | exact .bind (runScenariosT_ends (fun _ => ht _) (fun _ => hd _) resetT_ends runT_ends _ _) fun _ => .pure _

theorem sameRuns_of_eng [DecidableEq α] {m m' : TLM N α} (h : m.eng = m'.eng) : SameRuns R m m' := by
  intro d
  by_cases hg : ∃ vals u, GoodDrivers R d vals u
  · obtain ⟨vals, u, hg⟩ := hg
    obtain ⟨h1, h2⟩ := simulate_congr R h hg hg rfl
    exact ⟨h1, fun _ => h2⟩
  · obtain ⟨e, e1, e2⟩ := simulate_bad_eq R m m' (fun v u hh => hg ⟨v, u, hh⟩)
    rw [e1, e2]
    exact ⟨rfl, fun h => by cases h⟩

theorem sameRuns_refl [DecidableEq α] (m : TLM N α) : SameRuns R m m := fun _ => ⟨rfl, fun _ => rfl⟩

/-- an assignment of a parameter with one cached number, interrupted -/
theorem cut_setter [DecidableEq α] {name : String} {u : Units N} {v : Arg N α} {f g : Qty N α → TLM N α → TLM N α}
    (hf : ∀ q m, (f q m).eng = m.eng) (hg : ∀ q m, (g q (f q m)).pub = (f q m).pub) (k : Nat) (m : TLM N α) :
    let x : Tr (TLM N α) Unit := do let q ← Tr.lift (checkQty R v name u); Tr.assign (f q); Tr.assign (g q)
    ((x.cut k m).pub = m.pub ∨ (x.cut k m).pub = (x.whole m).1.pub) ∧
      (SameRuns R (x.cut k m) m ∨ SameRuns R (x.cut k m) (x.whole m).1) := by
  intro x
  rcases Tr.cut_pair (checkQty R v name u) f g k m with h | ⟨q, hq, h | h⟩
  · exact ⟨Or.inl (congrArg _ h), Or.inl (by rw [show x.cut k m = m from h]; exact sameRuns_refl R m)⟩
  · have hw : (x.whole m).1 = g q (f q m) := by
      simp only [x, Tr.whole_bind, Tr.whole_lift, Tr.whole_assign, Py.bind_apply, Py.lift_apply, Py.modify_apply, hq]
    rw [show x.cut k m = f q m from h, hw]
    exact ⟨Or.inr (hg q m).symm, Or.inl (sameRuns_of_eng R (hf q m))⟩
  · have hw : (x.whole m).1 = g q (f q m) := by
      simp only [x, Tr.whole_bind, Tr.whole_lift, Tr.whole_assign, Py.bind_apply, Py.lift_apply, Py.modify_apply, hq]
    rw [show x.cut k m = g q (f q m) from h, hw]
    exact ⟨Or.inr rfl, Or.inr (sameRuns_refl R _)⟩

/-- the two depths have two cached numbers -/
theorem cut_depth [DecidableEq α] {c : Except Err (Qty N α)} {f g : Qty N α → TLM N α → TLM N α}
    {c' : TLM N α → Except Err (Qty N α)} {h : Qty N α → TLM N α → TLM N α}
    (hf : ∀ q m, (f q m).eng = m.eng) (hg : ∀ q m, (g q m).eng = m.eng) (hgp : ∀ q m, (g q m).pub = m.pub)
    (hhp : ∀ q m, (h q m).pub = m.pub) (k : Nat) (m : TLM N α) :
    let x : Tr (TLM N α) Unit := do
      let q ← Tr.lift c
      Tr.assign (f q)
      Tr.assign (g q)
      let m ← Tr.get
      let q' ← Tr.lift (c' m)
      Tr.assign (h q')
    ((x.cut k m).pub = m.pub ∨ (x.cut k m).pub = (x.whole m).1.pub) ∧
      (SameRuns R (x.cut k m) m ∨ SameRuns R (x.cut k m) (x.whole m).1) := by
  intro x
  cases hc : c with
  | error e =>
    have : x.cut k m = m := by
      simp only [x, hc]
      rcases k with _ | k <;> rfl
    rw [this]
    exact ⟨Or.inl rfl, Or.inl (sameRuns_refl R m)⟩
  | ok q =>
    cases hc' : c' (g q (f q m)) with
    | error e =>
      have hx : x.exec m = ([f q m, g q (f q m)], g q (f q m), .error e) := by
        simp [x, hc, Tr.exec_bind, Tr.exec, Tr.lift, Tr.assign, Tr.get, hc']
      have hw : (x.whole m).1 = g q (f q m) := by rw [Tr.whole, hx]
      have he : (g q (f q m)).eng = m.eng := (hg q _).trans (hf q m)
      rw [hw]
      unfold Tr.cut
      rw [hx]
      rcases k with _ | _ | _ | k
      · exact ⟨Or.inl rfl, Or.inl (sameRuns_refl R m)⟩
      · exact ⟨Or.inr (hgp q _).symm, Or.inl (sameRuns_of_eng R (hf q m))⟩
      · exact ⟨Or.inr rfl, Or.inl (sameRuns_of_eng R he)⟩
      · exact ⟨Or.inr rfl, Or.inl (sameRuns_of_eng R he)⟩
    | ok q' =>
      have hx : x.exec m = ([f q m, g q (f q m), h q' (g q (f q m))], h q' (g q (f q m)), .ok ()) := by
        simp [x, hc, Tr.exec_bind, Tr.exec, Tr.lift, Tr.assign, Tr.get, hc']
      have hw : (x.whole m).1 = h q' (g q (f q m)) := by rw [Tr.whole, hx]
      have he : (g q (f q m)).eng = m.eng := (hg q _).trans (hf q m)
      have hp : (h q' (g q (f q m))).pub = (f q m).pub := (hhp _ _).trans (hgp q _)
      rw [hw]
      unfold Tr.cut
      rw [hx]
      rcases k with _ | _ | _ | _ | k
      · exact ⟨Or.inl rfl, Or.inl (sameRuns_refl R m)⟩
      · exact ⟨Or.inr hp.symm, Or.inl (sameRuns_of_eng R (hf q m))⟩
      · exact ⟨Or.inr (hhp _ _).symm, Or.inl (sameRuns_of_eng R he)⟩
      · exact ⟨Or.inr rfl, Or.inr (sameRuns_refl R _)⟩
      · exact ⟨Or.inr rfl, Or.inr (sameRuns_refl R _)⟩

theorem setDeltaTT_eq (v : Arg N α) : setDeltaTT R v = (do
    let q ← Tr.lift (checkQty R v "delta_t" R.s)
    Tr.assign fun m => { m with core := { m.core with deltaT := q } }
    Tr.assign fun m => { m with core := { m.core with deltaTMag := q.magIn R R.s } } : Tr (TLM N α) Unit) := by
  simp only [setDeltaTT, Core.setDeltaTT]
  cases hc : checkQty R v "delta_t" R.s with
  | error e => rfl
  | ok q => rfl

theorem callT_setter [DecidableEq α] {op : Op N α} (hop : op.IsSetter) (k : Nat) (m : TLM N α) :
    (((callT R op).cut k m).pub = m.pub ∨ ((callT R op).cut k m).pub = (call R op m).1.pub) ∧
      (SameRuns R ((callT R op).cut k m) m ∨ SameRuns R ((callT R op).cut k m) (call R op m).1) := by
  rw [← whole_call]
  cases op with
  | setDu v =>
    exact cut_depth R (f := fun q m => { m with du := q }) (g := fun q m => { m with duMag := q.magIn R R.m })
      (c' := fun m => (m.heatCapacityUpper R).toUnit R R.jm2c) (h := fun q m => { m with hcuMag := q.mag })
      (fun _ _ => rfl) (fun _ _ => rfl) (fun _ _ => rfl) (fun _ _ => rfl) k m
  | setDl v =>
    exact cut_depth R (f := fun q m => { m with dl := q }) (g := fun q m => { m with dlMag := q.magIn R R.m })
      (c' := fun m => (m.heatCapacityLower R).toUnit R R.jm2c) (h := fun q m => { m with hclMag := q.mag })
      (fun _ _ => rfl) (fun _ _ => rfl) (fun _ _ => rfl) (fun _ _ => rfl) k m
  | setLambda0 v =>
    exact cut_setter R (f := fun q m => { m with lambda0 := q })
      (g := fun q m => { m with lambda0Mag := q.magIn R R.wm2c }) (fun _ _ => rfl) (fun _ _ => rfl) k m
  | setA v =>
    exact cut_setter R (f := fun q m => { m with a := q })
      (g := fun q m => { m with aMag := q.magIn R R.wm2cc }) (fun _ _ => rfl) (fun _ _ => rfl) k m
  | setEfficacy v =>
    exact cut_setter R (f := fun q m => { m with efficacy := q })
      (g := fun q m => { m with efficacyMag := q.magIn R R.one }) (fun _ _ => rfl) (fun _ _ => rfl) k m
  | setEta v =>
    exact cut_setter R (f := fun q m => { m with eta := q })
      (g := fun q m => { m with etaMag := q.magIn R R.wm2c }) (fun _ _ => rfl) (fun _ _ => rfl) k m
  | setDeltaT v =>
    simp only [callT, setDeltaTT_eq]
    exact cut_setter R (f := fun q m => { m with core := { m.core with deltaT := q } })
      (g := fun q m => { m with core := { m.core with deltaTMag := q.magIn R R.s } }) (fun _ _ => rfl) (fun _ _ => rfl) k m
  | setErf v => exact hop.elim
  | setDrivers v => exact hop.elim
  | reset => exact hop.elim
  | step => exact hop.elim
  | run => exact hop.elim
  | runScenarios dv scen => exact hop.elim

theorem setAll_ok [DecidableEq α] {R : Registry N α} (D : R.Dimensional) {x : Args N α} {m₀ : TLM N α} (hx : init R x = .ok m₀) (m : TLM N α) :
    ∃ m', setAll R x m = (m', .ok ()) ∧ m'.used = m₀.used := by
  obtain ⟨du, dl, l, a, ef, et, dt, rfl, h1, h2, h3, h4, h5, h6, h7, rfl⟩ := init_ok R hx
  have c3 : checkQty R (.qty l) "lambda0" R.wm2c = .ok l := checkQty_ok.mpr ⟨rfl, h3⟩
  have c4 : checkQty R (.qty a) "a" R.wm2cc = .ok a := checkQty_ok.mpr ⟨rfl, h4⟩
  have c5 : checkQty R (.qty ef) "efficacy" R.one = .ok ef := checkQty_ok.mpr ⟨rfl, h5⟩
  have c6 : checkQty R (.qty et) "eta" R.wm2c = .ok et := checkQty_ok.mpr ⟨rfl, h6⟩
  have c7 : checkQty R (.qty dt) "delta_t" R.s = .ok dt := checkQty_ok.mpr ⟨rfl, h7⟩
  refine ⟨(setAll R _ m).1, Prod.ext rfl ?_, ?_⟩ <;>
    simp only [setAll, Py.bind_apply, setDu_ok R D h1, setDl_ok R D h2, setLambda0, setA, setEfficacy, setEta,
      Py.lift_apply, c3, c4, c5, c6, Py.modify_apply, setDeltaT, Py.onCore, Core.setDeltaT, c7, used, cleared]
end TLM

namespace IRM
variable (R : Registry N α)

theorem resetT_ends : Tr.Ends (resetT (N := N) (α := α)) :=
  .bind .get fun _ => .ite (.throw _) (.bind (.assign _) fun _ => .bind .get fun _ => .bind (.lift _) fun _ => .bind (.assign _) fun _ => .bind .get fun _ => .bind (.lift _) fun _ => .bind (.assign _) fun _ => .bind .get fun _ => .bind (.lift _) fun _ => .assign _)

theorem stepT_ends : Tr.Ends (stepT R) := by
  refine .bind (.bind .get fun m => .ite (.assign _) (.bind .get fun _ => .assign _)) fun _ => .bind .get fun m' => .ite ?_ ?_
  · exact .bind .get fun _ => .bind (.lift _) fun _ => .bind (.lift _) fun _ => .bind (.assign _) fun _ => .bind .get fun _ => .bind (.lift _) fun _ => .bind (.lift _) fun _ => .bind (.assign _) fun _ => .bind .get fun _ => .bind (.lift _) fun _ => .bind (.lift _) fun _ => .assign _
  · exact .bind .get fun _ => .bind (.lift _) fun _ => .bind (.lift _) fun _ => .bind (.lift _) fun _ => .bind (.lift _) fun _ => .bind (.lift _) fun _ => .bind (.assign _) fun _ => .bind .get fun _ => .bind (.lift _) fun _ => .bind (.lift _) fun _ => .bind (.lift _) fun _ => .bind (.lift _) fun _ => .bind (.lift _) fun _ => .bind (.assign _) fun _ => .bind .get fun _ => .bind (.lift _) fun _ => .bind (.lift _) fun _ => .bind (.lift _) fun _ => .bind (.lift _) fun _ => .bind (.lift _) fun _ => .bind (.lift _) fun _ => .assign _

theorem runT_ends : Tr.Ends (runT R) := .bind .get fun _ => .times (stepT_ends R) _

theorem callT_ends [DecidableEq α] (op : Op N α) : Tr.Ends (callT R op) := by
  have hd : ∀ v, Tr.Ends (setDriversT R v) := fun v => .onCore (fun _ _ => rfl) (fun _ _ _ => rfl) (fun _ => rfl) (Core.setDriversT_ends R v)
  have ht : ∀ v, Tr.Ends (setDeltaTT R v) := fun v => .onCore (fun _ _ => rfl) (fun _ _ _ => rfl) (fun _ => rfl) (Core.setDeltaTT_ends R _ v)
  cases op <;> first
    | exact hd _
    | exact ht _
    | exact resetT_ends
    | exact stepT_ends R
    | exact runT_ends R
    | exact .onCore (fun _ _ => rfl) (fun _ _ _ => rfl) (fun _ => rfl) (Core.setErfT_ends R _)
    | exact .bind (.lift _) fun _ => .bind (.assign _) fun _ => .assign _
    | exact .bind (.lift _) fun _ => .bind (.assign _) fun _ => .bind (.assign _) fun _ => .bind .get fun _ =>
        .bind (.lift _) fun _ => .assign _
    | exact .bind (runScenariosT_ends (fun _ => ht _) (fun _ => hd _) resetT_ends (runT_ends R) _ _) fun _ => .pure _

theorem seq_temps {e e' : Eng α} (hA : e.nA = e'.nA) (hB : e.nB = e'.nB) (F : List α) : ∀ (i : Nat) {a b c a' b' c' : α},
    e.seq F i = .ok (a, b, c) → e'.seq F i = .ok (a', b', c') → a = a' ∧ b = b' := by
  intro i
  induction i with
  | zero =>
    intro a b c a' b' c' h h'
    simp only [Eng.seq, Except.ok.injEq, Prod.mk.injEq] at h h'
    exact ⟨h.1.symm.trans h'.1, h.2.1.symm.trans h'.2.1⟩
  | succ i ih =>
    intro a b c a' b' c' h h'
    simp only [Eng.seq] at h h'
    cases h1 : e.seq F i with
    | error x => rw [h1] at h; cases h
    | ok x =>
    cases h1' : e'.seq F i with
    | error x => rw [h1'] at h'; cases h'
    | ok x' =>
    obtain ⟨a0, b0, c0⟩ := x
    obtain ⟨a0', b0', c0'⟩ := x'
    obtain ⟨rfl, rfl⟩ := ih h1 h1'
    rw [h1] at h
    rw [h1'] at h'
    simp only at h h'
    cases hg : getAt F i with
    | error x => rw [hg] at h; cases h
    | ok f =>
    rw [hg] at h h'
    simp only at h h'
    rw [← hA, ← hB] at h'
    cases h2 : e.nA a0 b0 f with
    | error x => rw [h2] at h; cases h
    | ok x =>
    rw [h2] at h h'
    simp only at h h'
    cases h3 : e.nB a0 b0 f with
    | error x => rw [h3] at h; cases h
    | ok y =>
    rw [h3] at h h'
    simp only at h h'
    cases h4 : e.nC a0 b0 x y f with
    | error z => rw [h4] at h; cases h
    | ok z =>
    cases h5 : e'.nC a0 b0 x y f with
    | error z => rw [h5] at h'; cases h'
    | ok z' =>
    rw [h4] at h
    rw [h5] at h'
    simp only [Except.ok.injEq, Prod.mk.injEq] at h h'
    exact ⟨h.1.symm.trans h'.1, h.2.1.symm.trans h'.2.1⟩

/-- runs of objects that compute the temperatures in the same way -/
theorem temps_of_eng {m m' : IRM N α} (hA : (m.eng R).nA = (m'.eng R).nA) (hB : (m.eng R).nB = (m'.eng R).nB)
    {d : DArg N α} {m₁ m₁' : IRM N α} (h : simulate R d m = (m₁, .ok ())) (h' : simulate R d m' = (m₁', .ok ())) :
    m₁.outputs.take 3 = m₁'.outputs.take 3 := by
  obtain ⟨vals, u, v, hg, rfl, hI⟩ := simulate_ok h
  obtain ⟨vals', u', v', hg', rfl, hI'⟩ := simulate_ok h'
  have hd := hg.1.symm.trans hg'.1
  simp only [DArg.qty.injEq, Arr.mk.injEq, true_and] at hd
  obtain ⟨rfl, rfl⟩ := hd
  have key : ∀ i : Nat, v.A[i]? = v'.A[i]? ∧ v.B[i]? = v'.B[i]? := by
    intro i
    by_cases hi : i < vals.length
    · obtain ⟨a, b, c, e1, e2, e3, -⟩ := hI.done i hi
      obtain ⟨a', b', c', f1, f2, f3, -⟩ := hI'.done i hi
      obtain ⟨rfl, rfl⟩ := seq_temps hA hB _ i e1 f1
      exact ⟨e2.trans f2.symm, e3.trans f3.symm⟩
    · have l1 := hI.lA
      have l2 := hI.lB
      have l3 := hI'.lA
      have l4 := hI'.lB
      simp only [modelF_length] at l1 l2 l3 l4
      rw [List.getElem?_eq_none (by omega), List.getElem?_eq_none (by omega), List.getElem?_eq_none (by omega),
        List.getElem?_eq_none (by omega)]
      exact ⟨rfl, rfl⟩
  have eA : v.A = v'.A := List.ext_getElem? fun i => (key i).1
  have eB : v.B = v'.B := List.ext_getElem? fun i => (key i).2
  simp only [outputs, setView, eA, eB, List.take]

theorem sameTemps_of_eng [DecidableEq α] {m m' : IRM N α} (hA : (m.eng R).nA = (m'.eng R).nA)
    (hB : (m.eng R).nB = (m'.eng R).nB) : SameTemps R m m' := fun _ _ _ h h' => temps_of_eng R hA hB h h'

theorem cut_setter [DecidableEq α] {name : String} {u : Units N} {v : Arg N α} {f g : Qty N α → IRM N α → IRM N α}
    (hA : ∀ q m, ((f q m).eng R).nA = (m.eng R).nA) (hB : ∀ q m, ((f q m).eng R).nB = (m.eng R).nB)
    (hg : ∀ q m, (g q (f q m)).pub = (f q m).pub) (k : Nat) (m : IRM N α) :
    let x : Tr (IRM N α) Unit := do let q ← Tr.lift (checkQty R v name u); Tr.assign (f q); Tr.assign (g q)
    ((x.cut k m).pub = m.pub ∨ (x.cut k m).pub = (x.whole m).1.pub) ∧
      (SameTemps R (x.cut k m) m ∨ SameTemps R (x.cut k m) (x.whole m).1) := by
  intro x
  rcases Tr.cut_pair (checkQty R v name u) f g k m with h | ⟨q, hq, h | h⟩
  · exact ⟨Or.inl (congrArg _ h), Or.inl (by rw [show x.cut k m = m from h]; exact sameTemps_of_eng R rfl rfl)⟩
  · have hw : (x.whole m).1 = g q (f q m) := by
      simp only [x, Tr.whole_bind, Tr.whole_lift, Tr.whole_assign, Py.bind_apply, Py.lift_apply, Py.modify_apply, hq]
    rw [show x.cut k m = f q m from h, hw]
    exact ⟨Or.inr (hg q m).symm, Or.inl (sameTemps_of_eng R (hA q m) (hB q m))⟩
  · have hw : (x.whole m).1 = g q (f q m) := by
      simp only [x, Tr.whole_bind, Tr.whole_lift, Tr.whole_assign, Py.bind_apply, Py.lift_apply, Py.modify_apply, hq]
    rw [show x.cut k m = g q (f q m) from h, hw]
    exact ⟨Or.inr rfl, Or.inr (sameTemps_of_eng R rfl rfl)⟩

theorem setDeltaTT_eq (v : Arg N α) : setDeltaTT R v = (do
    let q ← Tr.lift (checkQty R v "delta_t" R.yr)
    Tr.assign fun m => { m with core := { m.core with deltaT := q } }
    Tr.assign fun m => { m with core := { m.core with deltaTMag := q.magIn R R.yr } } : Tr (IRM N α) Unit) := by
  simp only [setDeltaTT, Core.setDeltaTT]
  cases hc : checkQty R v "delta_t" R.yr with
  | error e => rfl
  | ok q => rfl

theorem callT_setter [DecidableEq α] {op : Op N α} (hop : op.IsSetter) (k : Nat) (m : IRM N α) :
    (((callT R op).cut k m).pub = m.pub ∨ ((callT R op).cut k m).pub = (call R op m).1.pub) ∧
      (SameTemps R ((callT R op).cut k m) m ∨ SameTemps R ((callT R op).cut k m) (call R op m).1) := by
  rw [← whole_call]
  cases op with
  | setQ1 v =>
    exact cut_setter R (f := fun q m => { m with q1 := q })
      (g := fun q m => { m with q1Mag := q.magIn R R.cwm2 }) (fun _ _ => by simp only [eng]) (fun _ _ => by simp only [eng]) (fun _ _ => rfl) k m
  | setQ2 v =>
    exact cut_setter R (f := fun q m => { m with q2 := q })
      (g := fun q m => { m with q2Mag := q.magIn R R.cwm2 }) (fun _ _ => by simp only [eng]) (fun _ _ => by simp only [eng]) (fun _ _ => rfl) k m
  | setD1 v =>
    exact cut_setter R (f := fun q m => { m with d1 := q })
      (g := fun q m => { m with d1Mag := q.magIn R R.yr }) (fun _ _ => by simp only [eng]) (fun _ _ => by simp only [eng]) (fun _ _ => rfl) k m
  | setD2 v =>
    exact cut_setter R (f := fun q m => { m with d2 := q })
      (g := fun q m => { m with d2Mag := q.magIn R R.yr }) (fun _ _ => by simp only [eng]) (fun _ _ => by simp only [eng]) (fun _ _ => rfl) k m
  | setEfficacy v =>
    exact cut_setter R (f := fun q m => { m with efficacy := q })
      (g := fun q m => { m with efficacyMag := q.magIn R R.one }) (fun _ _ => by simp only [eng]) (fun _ _ => by simp only [eng]) (fun _ _ => rfl) k m
  | setDeltaT v =>
    simp only [callT, setDeltaTT_eq]
    exact cut_setter R (f := fun q m => { m with core := { m.core with deltaT := q } })
      (g := fun q m => { m with core := { m.core with deltaTMag := q.magIn R R.yr } }) (fun _ _ => by simp only [eng])
      (fun _ _ => by simp only [eng]) (fun _ _ => rfl) k m
  | setErf v => exact hop.elim
  | setDrivers v => exact hop.elim
  | reset => exact hop.elim
  | step => exact hop.elim
  | run => exact hop.elim
  | runScenarios dv scen => exact hop.elim

theorem setAll_ok [DecidableEq α] {R : Registry N α} {x : Args N α} {m₀ : IRM N α} (hx : init R x = .ok m₀) (m : IRM N α) :
    ∃ m', setAll R x m = (m', .ok ()) ∧ m'.used = m₀.used := by
  obtain ⟨q1, q2, d1, d2, ef, dt, rfl, h1, h2, h3, h4, h5, h6, -, rfl⟩ := init_ok R hx
  have c1 : checkQty R (.qty q1) "q1" R.cwm2 = .ok q1 := checkQty_ok.mpr ⟨rfl, h1⟩
  have c2 : checkQty R (.qty q2) "q2" R.cwm2 = .ok q2 := checkQty_ok.mpr ⟨rfl, h2⟩
  have c3 : checkQty R (.qty d1) "d1" R.yr = .ok d1 := checkQty_ok.mpr ⟨rfl, h3⟩
  have c4 : checkQty R (.qty d2) "d2" R.yr = .ok d2 := checkQty_ok.mpr ⟨rfl, h4⟩
  have c5 : checkQty R (.qty ef) "efficacy" R.one = .ok ef := checkQty_ok.mpr ⟨rfl, h5⟩
  have c6 : checkQty R (.qty dt) "delta_t" R.yr = .ok dt := checkQty_ok.mpr ⟨rfl, h6⟩
  refine ⟨(setAll R _ m).1, Prod.ext rfl ?_, ?_⟩ <;>
    simp only [setAll, Py.bind_apply, setQ1, setQ2, setD1, setD2, setEfficacy,
      Py.lift_apply, c1, c2, c3, c4, c5, Py.modify_apply, setDeltaT, Py.onCore, Core.setDeltaT, c6, used, cleared]
end IRM

end TwoLayer

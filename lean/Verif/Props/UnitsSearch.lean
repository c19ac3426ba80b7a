import Verif.Proofs.ScaleSearch
import Verif.Props.Names
/-
C80: the unit of length does not matter to the searches of bin packing.
-/
namespace HP
open Spec

/-- **C80**, building the problem: the constructor given all sizes multiplied by `k` gives the
multiplied problem, or the same error. -/
theorem C80_new (E : Env) (cs its : PyDict String Dim) (hc : ValidSizes cs) (hi : ValidSizes its)
    (hcn : cs ≠ []) (hin : its ≠ []) (st : PyVal) (k : Nat) (hk : 0 < k) :
    mkInst E (SKind.containers.encodeAll (scaleDims k cs)) (SKind.items.encodeAll (scaleDims k its)) st .none =
      (mkInst E (SKind.containers.encodeAll cs) (SKind.items.encodeAll its) st .none).map (scaleInst k) := by
  have hc' := scaleDims_valid hk hc
  have hi' := scaleDims_valid hk hi
  have e1 : initContainers (SKind.containers.encodeAll cs) .none = .ok (false, cs, none) := by
    unfold initContainers
    simp only [PyVal.isNone, if_true, buildStructure_encodeAll .containers hc hcn]
  have e2 : initContainers (SKind.containers.encodeAll (scaleDims k cs)) .none = .ok (false, scaleDims k cs, none) := by
    unfold initContainers
    simp only [PyVal.isNone, if_true, buildStructure_encodeAll .containers hc' (fun h => hcn (List.map_eq_nil_iff.1 h))]
  rw [mkInst_pack (E := E) (st := st) e1 e2 (by simp [scaleDims]) (buildStructure_encodeAll .items hi hin)
    (buildStructure_encodeAll .items hi' (fun h => hin (List.map_eq_nil_iff.1 h)))]
  cases hm : mkInst E (SKind.containers.encodeAll cs) (SKind.items.encodeAll its) st .none with
  | error e => rfl
  | ok i =>
    obtain ⟨h1, h2⟩ := mkInst_fresh hm
    have h3 := mkInst_bin e1 (buildStructure_encodeAll .items hi hin) hm
    simp only [Except.map, Inst.pack, scaleInst]
    have e1 : scaleSol k i.solution = i.solution := by rw [h1]; rfl
    rw [h3.1, h3.2, e1]

/-- **C80**, `local_search` of bin packing: with all lengths multiplied by `k`, the search takes the
same decisions: the result is the original result with all positions and sizes multiplied by `k`,
with the same values. -/
theorem C80_local_search (A : Arith) (k : Nat) (hk : 0 < k) (hA : UnitFree A k) (i : Inst) (h : Reach A i)
    (hb : i.strip = false) (hlow : ∀ q ∈ i.items, ¬ LowStrip true q.2)
    (clock : Nat → Rat) (throttle : Bool) :
    step A (scaleInst k i) (.localSearch clock throttle) =
      (scaleInst k (step A i (.localSearch clock throttle)).1, (step A i (.localSearch clock throttle)).2) := by
  have hv := h.good.valid
  obtain ⟨h1, _⟩ := (scaleHom A hk hA).localSearch (fun k => clock (k + 1)) (clock 0) throttle (i := i)
    ⟨hb, hv.conts, hv.items, hlow⟩
  simp only [step]
  rw [h1]
  cases i.localSearch A (fun k => clock (k + 1)) (clock 0) throttle <;> rfl

/-- **C80**, `sort_items` and `orient_items` -/
theorem C80_arrange (A : Arith) (k : Nat) (hk : 0 < k) (hA : UnitFree A k) (i : Inst) (h : Reach A i)
    (hb : i.strip = false) :
    (∀ o, step A (scaleInst k i) (.orientItems o) =
      (scaleInst k (step A i (.orientItems o)).1, (step A i (.orientItems o)).2)) ∧
    (∀ s, step A (scaleInst k i) (.sortItems s) =
      (scaleInst k (step A i (.sortItems s)).1, (step A i (.sortItems s)).2)) := by
  refine ⟨fun o => ?_, fun s => ?_⟩
  · show outcomeOf _ = _
    rw [orientItems_scale hk h.good.valid hb]
    rfl
  · show outcomeOf _ = _
    rw [sortItems_scale A hk hA h.good.valid hb]
    rfl

/-- **C80**, `hypersearch` of bin packing, with sorting and orientation, in one process or in
several, for every schedule of the workers.  `fits'`: the same messages fit into a pipe. -/
theorem C80_hypersearch (A : Arith) (k : Nat) (hk : 0 < k) (hA : UnitFree A k) (i : Inst) (h : Reach A i)
    (hb : i.strip = false) (hlow : ∀ q ∈ i.items, ¬ LowStrip true q.2) (a : HSArgs) (fits' : Msg → Bool)
    (hfits : ∀ m, fits' ⟨m.value, scaleSol k m.sol, m.ov, m.strategy⟩ = a.fits m) :
    step A (scaleInst k i) (.hypersearch { a with fits := fits' }) =
      (scaleInst k (step A i (.hypersearch a)).1, (step A i (.hypersearch a)).2) := by
  have hv := h.good.valid
  have hP : Scalable i := ⟨hb, hv.conts, hv.items, hlow⟩
  show Inst.hypersearch A { a with fits := fits' } (scaleInst k i) =
    (scaleInst k (i.hypersearch A a).1, (i.hypersearch A a).2)
  unfold Inst.hypersearch
  simp only
  rw [sortItems_scale A hk hA hv hb a.sortingBy]
  have h1 := sortItems_edited hv A a.sortingBy
  have hP1 := hP.sort (A := A) hv a.sortingBy
  generalize i.sortItems A a.sortingBy = r at h1 hP1 ⊢
  obtain ⟨j, e | u⟩ := r
  · rfl
  · simp only at h1 hP1 ⊢
    have hvj := either_valid hv h1
    rw [orientItems_scale hk hvj hP1.1]
    have h2 := orientItems_edited hvj a.orientation
    have hP2 := hP1.orient hvj a.orientation
    generalize j.orientItems a.orientation = r at h2 hP2 ⊢
    obtain ⟨m, e | u⟩ := r
    · rfl
    · simp only at h2 hP2 ⊢
      have hvm := either_valid hvj h2
      refine (scaleHom A hk hA).search (fun _ _ => rfl) rfl rfl a fits' hfits hP2 (workerInst_scale a.env hk hvm hP2.1) ?_
      intro w hw
      obtain ⟨_, h3, h4, h5, _⟩ := workerInst_spec hvm hw
      exact (scaleHom A hk hA).frame m w h5 h4 h3 hP2

/-- exact arithmetic does not depend on the unit -/
theorem C80_exact (k : Nat) (hk : 0 < k) : UnitFree Arith.exact k where
  ratio := (C78_exact k hk).1
  div := (C78_exact k hk).2
  quot a b := by
    simp only [Arith.exact]
    have : ((k : Nat) : Rat) ≠ 0 := by exact_mod_cast hk.ne'
    push_cast
    exact mul_div_mul_left _ _ this

/-- two containers, four items -/
def metres : Inst := { rawInst false [("c0", ⟨3, 3⟩), ("c1", ⟨3, 3⟩)]
    [("i0", ⟨2, 2⟩), ("i1", ⟨3, 3⟩), ("i2", ⟨3, 3⟩), ("i3", ⟨2, 3⟩)] none
    (.dict [(.str "workers_num", .int 2)]) with
  rotation := true, maxTime := 60, workers := .int 2, plotlyInstalled := false, plotlyOk := false,
  kaleidoInstalled := false, kaleidoOk := false }

theorem metres_reach : Reach Arith.exact metres :=
  .new (show mkInst plainEnv (SKind.containers.encodeAll [("c0", ⟨3, 3⟩), ("c1", ⟨3, 3⟩)])
    (SKind.items.encodeAll [("i0", ⟨2, 2⟩), ("i1", ⟨3, 3⟩), ("i2", ⟨3, 3⟩), ("i3", ⟨2, 3⟩)])
    (.dict [(.str "workers_num", .int 2)]) .none = .ok metres by rfl)

/-- C80 on a concrete problem: metres and millimetres -/
example : (step Arith.exact (scaleInst 1000 metres) (.hypersearch namedArgs)).2 = .ok ∧
    (step Arith.exact (scaleInst 1000 metres) (.hypersearch namedArgs)).1.solution =
      [("c0", [("i2", ⟨0, 0, 3000, 3000⟩)]), ("c1", [("i1", ⟨0, 0, 3000, 3000⟩)])] := by
  have h := C80_hypersearch Arith.exact 1000 (by decide) (C80_exact 1000 (by decide)) metres metres_reach rfl
    (by intro q hq
        simp only [metres, rawInst, List.mem_cons, List.not_mem_nil, or_false] at hq
        unfold LowStrip
        rcases hq with rfl | rfl | rfl | rfl <;> simp) namedArgs (fun _ => true) (fun _ => rfl)
  have e : ({ namedArgs with fits := fun _ => true } : HSArgs) = namedArgs := rfl
  rw [e] at h
  rw [h]
  decide +kernel

end HP

import Verif.Proofs.RenameSearch
import Verif.Props.Workers
import Verif.Props.Settings
/-
C79: ids are only names, for the searches.
-/
namespace HP
open Spec

/-- **C79**, building the problem: the constructor given the renamed containers and items (`f`
renames the items, `g` the containers) gives the renamed problem, or the same error. -/
theorem C79_new (E : Env) (cs its : PyDict String Dim) (hc : ValidSizes cs) (hi : ValidSizes its)
    (hcn : cs ≠ []) (hin : its ≠ []) (st : PyVal) (f g : String → String)
    (hf : Function.Injective f) (hg : Function.Injective g) :
    mkInst E (SKind.containers.encodeAll (cs.map (fun c => (g c.1, c.2))))
        (SKind.items.encodeAll (its.map (fun q => (f q.1, q.2)))) st .none =
      (mkInst E (SKind.containers.encodeAll cs) (SKind.items.encodeAll its) st .none).map (renInst f g) := by
  have hc' := validSizes_ren hg hc
  have hi' := validSizes_ren hf hi
  have e1 : initContainers (SKind.containers.encodeAll cs) .none = .ok (false, cs, none) := by
    unfold initContainers
    simp only [PyVal.isNone, if_true, buildStructure_encodeAll .containers hc hcn]
  have e2 : initContainers (SKind.containers.encodeAll (renKeys g cs)) .none = .ok (false, renKeys g cs, none) := by
    unfold initContainers
    simp only [PyVal.isNone, if_true, buildStructure_encodeAll .containers hc' (fun h => hcn (List.map_eq_nil_iff.1 h))]
  have := mkInst_pack (E := E) (st := st) e1 e2 (by simp [renKeys]) (buildStructure_encodeAll .items hi hin)
    (buildStructure_encodeAll .items hi' (fun h => hin (List.map_eq_nil_iff.1 h)))
  show mkInst E (SKind.containers.encodeAll (renKeys g cs)) (SKind.items.encodeAll (renKeys f its)) st .none = _
  rw [this]
  cases hm : mkInst E (SKind.containers.encodeAll cs) (SKind.items.encodeAll its) st .none with
  | error e => rfl
  | ok i =>
    obtain ⟨h1, h2⟩ := mkInst_fresh hm
    have h3 := mkInst_bin e1 (buildStructure_encodeAll .items hi hin) hm
    simp only [Except.map, Inst.pack, renInst]
    have e1 : renSol f g i.solution = i.solution := by rw [h1]; rfl
    have e2 : renKeys g i.objVals = i.objVals := by rw [h2]; rfl
    rw [h3.1, h3.2, e1, e2]

/-- **C79**, `local_search`: for a problem whose items are renamed by `f` and whose containers are
renamed by `g` (a strip keeps its only id), the local search gives the renamed result of the
original problem's local search, with the same outcome, in every state and for every clock. -/
theorem C79_local_search (A : Arith) (i : Inst) (f g : String → String)
    (hf : Function.Injective f) (hg : Function.Injective g) (hs : i.strip = true → g stripId = stripId)
    (clock : Nat → Rat) (throttle : Bool) :
    step A (renInst f g i) (.localSearch clock throttle) =
      (renInst f g (step A i (.localSearch clock throttle)).1, (step A i (.localSearch clock throttle)).2) := by
  obtain ⟨h1, _⟩ := (renHom A hf hg).localSearch (fun k => clock (k + 1)) (clock 0) throttle (i := i) hs
  simp only [step]
  rw [h1]
  cases i.localSearch A (fun k => clock (k + 1)) (clock 0) throttle <;> rfl

/-- **C79**, `orient_items` and, if the new ids are in the same alphabetic order as the old ones,
`sort_items` -/
theorem C79_arrange (A : Arith) (i : Inst) (h : Reach A i) (f g : String → String)
    (hf : Function.Injective f) (hg : Function.Injective g) (hs : i.strip = true → g stripId = stripId) :
    (∀ o, step A (renInst f g i) (.orientItems o) =
      (renInst f g (step A i (.orientItems o)).1, (step A i (.orientItems o)).2)) ∧
    ((∀ s t, strLt (f s) (f t) = strLt s t) → ∀ by_, step A (renInst f g i) (.sortItems by_) =
      (renInst f g (step A i (.sortItems by_)).1, (step A i (.sortItems by_)).2)) := by
  refine ⟨fun o => ?_, fun hm by_ => ?_⟩
  · show outcomeOf _ = _
    rw [orientItems_ren hf hg h.good.valid hs]
    rfl
  · show outcomeOf _ = _
    rw [sortItems_ren A hf hg h.good.valid hs by_ (Or.inr hm)]
    rfl

/-- **C79**, `hypersearch`: the same for the hypersearch, in one process or in several, for every
schedule of the workers, including the orientation and, if the new ids are in the same alphabetic
order as the old ones, the sorting.  `fits'`: the same messages fit into a pipe. -/
theorem C79_hypersearch (A : Arith) (i : Inst) (h : Reach A i) (f g : String → String)
    (hf : Function.Injective f) (hg : Function.Injective g) (hs : i.strip = true → g stripId = stripId)
    (a : HSArgs) (hm : a.sortingBy = none ∨ ∀ s t, strLt (f s) (f t) = strLt s t)
    (fits' : Msg → Bool)
    (hfits : ∀ m, fits' ⟨m.value, renSol f g m.sol, renKeys g m.ov, m.strategy⟩ = a.fits m) :
    step A (renInst f g i) (.hypersearch { a with fits := fits' }) =
      (renInst f g (step A i (.hypersearch a)).1, (step A i (.hypersearch a)).2) := by
  have hv := h.good.valid
  show Inst.hypersearch A { a with fits := fits' } (renInst f g i) =
    (renInst f g (i.hypersearch A a).1, (i.hypersearch A a).2)
  unfold Inst.hypersearch
  simp only
  rw [sortItems_ren A hf hg hv hs a.sortingBy hm]
  have h1 := sortItems_edited hv A a.sortingBy
  generalize i.sortItems A a.sortingBy = r at h1 ⊢
  obtain ⟨j, e | u⟩ := r
  · rfl
  · simp only at h1 ⊢
    have hvj := either_valid hv h1
    have hsj : j.strip = true → g stripId = stripId := by
      rcases h1 with rfl | ⟨_, _, _, rfl, _⟩ <;> exact hs
    rw [orientItems_ren hf hg hvj hsj]
    have h2 := orientItems_edited hvj a.orientation
    generalize j.orientItems a.orientation = r at h2 ⊢
    obtain ⟨k, e | u⟩ := r
    · rfl
    · simp only at h2 ⊢
      have hvk := either_valid hvj h2
      have hsk : k.strip = true → g stripId = stripId := by
        rcases h2 with rfl | ⟨_, _, _, rfl, _⟩ <;> exact hsj
      refine (renHom A hf hg).search (fun _ _ => rfl) rfl rfl a fits' hfits hsk (workerInst_ren a.env hf hg hvk hsk) ?_
      intro w hw
      obtain ⟨_, _, _, h4, _⟩ := workerInst_spec hvk hw
      rw [h4]
      exact hsk

/-- The condition on the sorting is needed: items with equal keys are sorted by their ids, so other
names can give another order (here: two items of the same area exchange their names). -/
theorem C79_sorting_uses_names : ∃ (i : Inst) (f : String → String), Reach Arith.exact i ∧ i.strip = false ∧
    Function.Injective f ∧ (renInst f id i).sortItems Arith.exact (some (.str "area", false)) ≠
      (renInst f id (i.sortItems Arith.exact (some (.str "area", false))).1,
        (i.sortItems Arith.exact (some (.str "area", false))).2) := by
  refine ⟨_, Equiv.swap "a" "b", .new (show mkInst fullEnv
      (.dict [(.str "c", .dict [(.str "W", .int 4), (.str "L", .int 4)])])
      (.dict [(.str "a", .dict [(.str "w", .int 1), (.str "l", .int 4)]),
        (.str "b", .dict [(.str "w", .int 2), (.str "l", .int 2)])]) (.dict []) .none = .ok _ from rfl), rfl,
    (Equiv.swap "a" "b").injective, ?_⟩
  intro h
  have := congrArg (fun r => r.1.items.map (·.1)) h
  revert this
  decide +kernel

/-! ### A concrete case -/

theorem prefix_injective (p : String) : Function.Injective (fun s => p ++ s) := by
  intro a b h
  have := congrArg String.toList h
  simp only [String.toList_append] at this
  exact String.toList_inj.1 (List.append_cancel_left this)

theorem prefix_strLt (p s t : String) : strLt (p ++ s) (p ++ t) = strLt s t := by
  unfold strLt
  simp only [String.toList_append, List.map_append]
  generalize p.toList.map Char.toNat = l
  induction l with
  | nil => rfl
  | cons a l ih => simpa [ltNats] using ih

/-- two containers, four items, two workers -/
def named : Inst := { rawInst false [("c0", ⟨3, 3⟩), ("c1", ⟨3, 3⟩)]
    [("i0", ⟨2, 2⟩), ("i1", ⟨3, 3⟩), ("i2", ⟨3, 3⟩), ("i3", ⟨1, 3⟩)] none
    (.dict [(.str "workers_num", .int 2)]) with
  rotation := true, maxTime := 60, workers := .int 2, plotlyInstalled := false, plotlyOk := false,
  kaleidoInstalled := false, kaleidoOk := false }

theorem named_reach : Reach Arith.exact named :=
  .new (show mkInst plainEnv (SKind.containers.encodeAll [("c0", ⟨3, 3⟩), ("c1", ⟨3, 3⟩)])
    (SKind.items.encodeAll [("i0", ⟨2, 2⟩), ("i1", ⟨3, 3⟩), ("i2", ⟨3, 3⟩), ("i3", ⟨1, 3⟩)])
    (.dict [(.str "workers_num", .int 2)]) .none = .ok named by rfl)

/-- a hypersearch with sorting, orientation and two workers that take turns -/
def namedArgs : HSArgs := { plainArgs false (fun _ => 0) with schedule := mpTurns }

/-- C79 on a concrete problem: the items are renamed to xi0, ..., the containers to yc0, ... -/
example : (step Arith.exact (renInst (fun s => "x" ++ s) (fun s => "y" ++ s) named) (.hypersearch namedArgs)).2 = .ok ∧
    (step Arith.exact (renInst (fun s => "x" ++ s) (fun s => "y" ++ s) named) (.hypersearch namedArgs)).1.solution =
      [("yc0", [("xi2", ⟨0, 0, 3, 3⟩)]), ("yc1", [("xi1", ⟨0, 0, 3, 3⟩)])] := by
  have h := C79_hypersearch Arith.exact named named_reach _ _ (prefix_injective "x") (prefix_injective "y")
    (fun h => by cases h) namedArgs (Or.inr (prefix_strLt "x")) (fun _ => true) (fun _ => rfl)
  have e : ({ namedArgs with fits := fun _ => true } : HSArgs) = namedArgs := rfl
  rw [e] at h
  rw [h]
  decide +kernel

end HP

import Verif.Proofs.Words
import Verif.Spec.Vocab
import Verif.Proofs.Service
/-
Bridge between the specification vocabulary and the model.
-/
namespace Dpe
variable {cfg : Cfg} {σ : Type}

theorem Names.live {st : State cfg} {h : Handle} {loc : U32} {i : Nat} (hn : Names st h loc i) :
    Live st i := live_of_active hn.1

theorem findActive_resolves {st : State cfg} {h : Handle} {loc : U32} {i : Nat}
    (hf : st.findActive h loc = .ok i) : Resolves st h loc i := by
  obtain ⟨c, hc, h1, h2, h3, h4⟩ := findActive_ok hf
  have e := at_of_getElem? hc
  refine ⟨⟨by rw [e]; exact h1, by rw [e]; exact h3, by rw [e]; exact h2⟩, ?_⟩
  intro j hj hn
  exact h4 j (st.at j) hj (getElem?_of_lt (lt_of_live hn.live)) ⟨hn.1, hn.2.2, hn.2.1⟩

theorem Resolves.unique {st : State cfg} {h : Handle} {loc : U32} {i j : Nat}
    (h1 : Resolves st h loc i) (h2 : Resolves st h loc j) : i = j := by
  rcases Nat.lt_trichotomy i j with h | h | h
  · exact absurd h1.1 (h2.2 i h)
  · exact h
  · exact absurd h2.1 (h1.2 j h)

theorem findActive_error {st : State cfg} {h : Handle} {loc : U32} {e : Err}
    (hf : st.findActive h loc = .error e) : (∀ i, ¬ Names st h loc i) ∧
      ((e = .invalidHandle ∧ LocalityInUse st loc) ∨
       (e = .invalidLocality ∧ ¬ LocalityInUse st loc)) := by
  obtain ⟨h1, h2⟩ := findActive_err hf
  refine ⟨fun i hn => h1 _ (at_mem (lt_of_live hn.live)) ⟨hn.1, hn.2.2, hn.2.1⟩, ?_⟩
  rcases h2 with ⟨rfl, c, hc, h3⟩ | ⟨rfl, h3⟩
  · obtain ⟨i, _, rfl⟩ := mem_contexts.mp hc
    exact .inl ⟨rfl, i, h3⟩
  · refine .inr ⟨rfl, ?_⟩
    rintro ⟨i, hi⟩
    exact h3 _ (at_mem (lt_of_live (live_of_active hi.1))) hi

theorem findActive_iff {st : State cfg} {h : Handle} {loc : U32} {i : Nat} :
    st.findActive h loc = .ok i ↔ Resolves st h loc i := by
  refine ⟨findActive_resolves, fun hr => ?_⟩
  rcases hf : st.findActive h loc with e | j
  · exact absurd hr.1 ((findActive_error hf).1 i)
  · rw [(findActive_resolves hf).unique hr]

theorem exists_resolves {st : State cfg} {h : Handle} {loc : U32} {i : Nat}
    (hn : Names st h loc i) : ∃ j, Resolves st h loc j := by
  rcases hf : st.findActive h loc with e | j
  · exact absurd hn ((findActive_error hf).1 i)
  · exact ⟨j, findActive_resolves hf⟩

theorem Resolves.lt {st : State cfg} {h : Handle} {loc : U32} {i : Nat}
    (hr : Resolves st h loc i) : i < cfg.maxHandles := lt_of_live hr.1.live

theorem Resolves.get {st : State cfg} {h : Handle} {loc : U32} {i : Nat}
    (hr : Resolves st h loc i) : st.contexts[i]? = some (st.at i) := getElem?_of_lt hr.lt

theorem fresh_iff {st : State cfg} {h : Handle} : Fresh st h ↔ Unused st h := by
  refine and_congr_right fun _ => ⟨fun h1 i hi => h1 _ (at_mem hi), fun h1 c hc => ?_⟩
  obtain ⟨i, hi, rfl⟩ := mem_contexts.mp hc
  exact h1 i hi

/-- Resolution of a named slot with its content. -/
theorem named_at {st : State cfg} {h : Handle} {loc : U32} {idx : Nat} {c : Context cfg}
    (hf : st.findActive h loc = .ok idx) (hc : st.contexts[idx]? = some c) :
    Resolves st h loc idx ∧ st.at idx = c :=
  ⟨findActive_resolves hf, at_of_getElem? hc⟩

theorem History.reachable {support : U32} {flags : BitVec 16} {evs : List (Event cfg)}
    {st : State cfg} (h : History support flags evs st) : Reachable st := by
  induction h with
  | new => exact .new _ _
  | @auto σ ops ty m w out r s' h =>
    have := Reachable.autoInit (cfg := cfg) ops ty m support flags w out
    rw [h] at this; exact this
  | @create σ ops st w out evs r s' _ h ih =>
    have := Reachable.create (cfg := cfg) ops st w out ih
    rw [h] at this; exact this
  | @cmd σ env c loc st w out evs r s' _ h ih =>
    have := Reachable.step env c loc st w out ih
    rw [h] at this; exact this

end Dpe

import Verif.Spec.Authorise
import Verif.Proofs.Vocab
/-
Facts about successful responses and support checks.
-/
namespace Dpe
variable {cfg : Cfg} {σ : Type}

theorem le32_length (x : U32) : (le32 x).length = 4 := rfl

theorem hdrBytes_length (p : Profile) (e : Err) : (hdrBytes p e).length = 12 := rfl

theorem take_drop_append {a b c : Bytes} {n m : Nat} (hn : a.length = n) (hm : b.length = m) :
    ((a ++ b ++ c).drop n).take m = b := by
  subst hn hm
  simp [List.append_assoc]

theorem replyHandle_zero {p : Profile} {e : Err} {h : Handle} {rest : Bytes} :
    replyHandle (hdrBytes p e ++ h.toList ++ rest) 0 = h.toList :=
  take_drop_append (by simp [hdrBytes_length]) (by simp)

theorem replyHandle_one {p : Profile} {e : Err} {h h' : Handle} {rest : Bytes} :
    replyHandle (hdrBytes p e ++ h.toList ++ h'.toList ++ rest) 1 = h'.toList :=
  take_drop_append (by simp [hdrBytes_length]) (by simp)

theorem Responded.ok {α : Type} {s s' : Sys cfg σ} {n m : α} {b : Bytes}
    (h : Responded s s' (.ok n) b m) :
    n = m ∧ b.length ≤ s.out.length ∧ s'.out = b ++ s.out.drop b.length := by
  rcases h with ⟨h1, h2, h3⟩ | ⟨h, _⟩
  · cases h1; exact ⟨rfl, h2, h3⟩
  · cases h

theorem Responded.error {α : Type} {s s' : Sys cfg σ} {e : Err} {m : α} {b : Bytes}
    (h : Responded s s' (.error e) b m) :
    e = .invalidResponseBuf ∧ s.out.length < b.length ∧ s'.out = s.out := by
  rcases h with ⟨h1, h2, h3⟩ | ⟨h, h1, h2⟩
  · cases h1
  · cases h; exact ⟨rfl, h1, h2⟩

theorem not_untouched_ok {α : Type} {s s' : Sys cfg σ} {n : α} : ¬ Untouched s s' (.ok n) := by
  rintro ⟨⟨e, h⟩, _⟩; cases h

theorem deriveUnsupported_iff {st : State cfg} {c : DeriveCmd cfg} :
    deriveUnsupported st.support c = true ↔ AsksUnsupported st c.flags := by
  unfold deriveUnsupported AsksUnsupported deriveNeeds State.supports Bit
  simp only [DeriveCmd.info, DeriveCmd.dice, DeriveCmd.retain, DeriveCmd.allowX509,
    DeriveCmd.createCert, DeriveCmd.exportCdi, DeriveCmd.recursive, infoBit, diceBit, retainBit,
    x509Bit, exportBit, recursiveBit, DFlag.internalInfo, DFlag.internalDice, DFlag.retainParent,
    DFlag.allowX509, DFlag.exportCdi, DFlag.createCert, DFlag.recursive, Feature.internalInfo,
    Feature.internalDice, Feature.retainParent, Feature.x509, Feature.cdiExport, Feature.recursive,
    List.mem_cons, List.not_mem_nil, or_false, exists_eq_or_imp, exists_eq_left,
    Bool.or_eq_true, Bool.and_eq_true, Bool.not_eq_true', Bool.not_eq_true]
  constructor
  · rintro (((((⟨a, b⟩ | ⟨a, b⟩) | ⟨a, b⟩) | ⟨a, b⟩) | ⟨a, b | b⟩) | ⟨a, b⟩)
    · exact .inl ⟨b, a⟩
    · exact .inr (.inl ⟨b, a⟩)
    · exact .inr (.inr (.inl ⟨b, a⟩))
    · exact .inr (.inr (.inr (.inl ⟨b, a⟩)))
    · exact .inr (.inr (.inr (.inr (.inr (.inl ⟨b, a⟩)))))
    · exact .inr (.inr (.inr (.inr (.inl ⟨b, a⟩))))
    · exact .inr (.inr (.inr (.inr (.inr (.inr ⟨b, a⟩)))))
  · rintro (⟨a, b⟩ | ⟨a, b⟩ | ⟨a, b⟩ | ⟨a, b⟩ | ⟨a, b⟩ | ⟨a, b⟩ | ⟨a, b⟩)
    · exact .inl (.inl (.inl (.inl (.inl ⟨b, a⟩))))
    · exact .inl (.inl (.inl (.inl (.inr ⟨b, a⟩))))
    · exact .inl (.inl (.inl (.inr ⟨b, a⟩)))
    · exact .inl (.inl (.inr ⟨b, a⟩))
    · exact .inl (.inr ⟨b, .inr a⟩)
    · exact .inl (.inr ⟨b, .inl a⟩)
    · exact .inr ⟨b, a⟩

theorem deriveUnsupported_false {st : State cfg} {c : DeriveCmd cfg} :
    deriveUnsupported st.support c = false ↔ ¬ AsksUnsupported st c.flags := by
  rw [← deriveUnsupported_iff]; simp

/-- The handle, slot and content a successful lookup yields. -/
theorem resolves_content {st : State cfg} {h : Handle} {loc : U32} {idx : Nat} {c : Context cfg}
    (hf : st.findActive h loc = .ok idx) (hc : st.contexts[idx]? = some c) :
    Resolves st h loc idx ∧ c = st.at idx := ⟨findActive_resolves hf, (at_of_getElem? hc).symm⟩

end Dpe

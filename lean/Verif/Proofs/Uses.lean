import Verif.Proofs.UsesLog
import Verif.Proofs.CertErr
import Verif.Proofs.CertExec
import Verif.Proofs.SignRun
/-
Every call that a command makes is one that it may make.
-/
namespace Dpe
variable {cfg : Cfg} {σ α β : Type} {ops : Ops σ}

/-! ### What stays true when more calls follow -/

theorem DigestOf.append {st : State cfg} {path : List Nat} {l : List (Use ops)} {d : Bytes}
    (h : DigestOf st path l d) (es : List (Use ops)) : DigestOf st path (l ++ es) d := by
  obtain ⟨pre, mid, post, more, rfl, h1, h2, h3⟩ := h
  exact ⟨pre, mid, post ++ es, more, by simp only [List.append_assoc], h1, h2, h3⟩

theorem KeyFrom.append {c : Cmd cfg} {l : List (Use ops)} {d : Bytes} {k : ops.Key}
    (h : KeyFrom c l d k) (es : List (Use ops)) : KeyFrom c (l ++ es) d k := by
  cases c with
  | sign x =>
    obtain ⟨cdi, h1, h2⟩ := h
    exact ⟨cdi, List.mem_append_left _ h1, List.mem_append_left _ h2⟩
  | certify x =>
    obtain ⟨cdi, h1, h2⟩ := h
    exact ⟨cdi, List.mem_append_left _ h1, List.mem_append_left _ h2⟩
  | derive x =>
    obtain ⟨hd, h1, h2⟩ := h
    exact ⟨hd, List.mem_append_left _ h1, List.mem_append_left _ h2⟩
  | _ => exact h.elim

theorem Owns.append {st : State cfg} {c : Cmd cfg} {loc : U32} {l : List (Use ops)} {path : List Nat}
    {d : Bytes} (h : Owns st c loc l path d) (es : List (Use ops)) : Owns st c loc (l ++ es) path d := by
  obtain ⟨i, h1, h2, h3⟩ := h
  exact ⟨i, h1, h2, h3.append es⟩

theorem Attests.append {st : State cfg} {c : Cmd cfg} {l : List (Use ops)} {path : List Nat}
    {d : Bytes} {s : Subject cfg} (h : Attests st c l path d s) (es : List (Use ops)) :
    Attests st c (l ++ es) path d s := by
  refine ⟨h.chain, ?_, ?_, h.ca, h.critical⟩
  · obtain ⟨k, h1, h2⟩ := h.key
    exact ⟨k, h1.append es, List.mem_append_left _ h2⟩
  · have := h.label
    cases c with
    | certify x => exact this
    | derive x =>
      obtain ⟨u, h1, h2⟩ := this
      exact ⟨u, List.mem_append_left _ h1, h2⟩
    | _ => exact this.elim

theorem Proper.nil {st : State cfg} {c : Cmd cfg} {loc : U32} : Proper (ops := ops) st c loc [] := by
  intro before u after h
  simp at h

theorem Proper.snoc {st : State cfg} {c : Cmd cfg} {loc : U32} {l : List (Use ops)} {u : Use ops}
    (h : Proper st c loc l) (hu : Allowed st c loc l u) : Proper st c loc (l ++ [u]) := by
  intro before v after he
  rcases List.eq_nil_or_concat after with rfl | ⟨as, a, rfl⟩
  · have := List.append_inj' he rfl
    obtain ⟨rfl, h2⟩ := this
    cases h2
    exact hu
  · rw [List.concat_eq_append, ← List.cons_append, ← List.append_assoc] at he
    have := List.append_inj' he rfl
    exact h before v as this.1

/-! ### A logic for protocols -/

/-- From the state `st` and the protocol `l`, the program leaves a protocol with the property `I`
whatever its outcome; if it succeeds, `Q` holds of the result, the state and the protocol. -/
def Asks (I : List (Use ops) → Prop) (st : State cfg) (l : List (Use ops))
    (m : M cfg (σ × List (Use ops)) α) (Q : α → State cfg → List (Use ops) → Prop) : Prop :=
  ∀ w out, I (m ⟨st, (w, l), out⟩).2.w.2 ∧ ∀ a, (m ⟨st, (w, l), out⟩).1 = .ok a →
    Q a (m ⟨st, (w, l), out⟩).2.st (m ⟨st, (w, l), out⟩).2.w.2

namespace Asks
variable {I : List (Use ops) → Prop} {st : State cfg} {l : List (Use ops)}

theorem bind {x : M cfg (σ × List (Use ops)) α} {f : α → M cfg (σ × List (Use ops)) β}
    {P : α → State cfg → List (Use ops) → Prop} {Q : β → State cfg → List (Use ops) → Prop}
    (hx : Asks I st l x P) (hf : ∀ a st' l', I l' → P a st' l' → Asks I st' l' (f a) Q) :
    Asks I st l (x >>= f) Q := by
  intro w out
  have e : (x >>= f) ⟨st, (w, l), out⟩ = M.bind x f ⟨st, (w, l), out⟩ := rfl
  rw [e]
  unfold M.bind
  have := hx w out
  rcases h : x ⟨st, (w, l), out⟩ with ⟨e | a, s'⟩
  · rw [h] at this
    exact ⟨this.1, fun _ h => by cases h⟩
  · rw [h] at this
    exact hf a s'.st s'.w.2 this.1 (this.2 a rfl) s'.w.1 s'.out

theorem imp {m : M cfg (σ × List (Use ops)) α} {P Q : α → State cfg → List (Use ops) → Prop}
    (h : Asks I st l m P) (hpq : ∀ a st' l', I l' → P a st' l' → Q a st' l') : Asks I st l m Q :=
  fun w out => ⟨(h w out).1, fun a ha => hpq _ _ _ (h w out).1 ((h w out).2 a ha)⟩

/-- Knowledge about successful runs can be added. -/
theorem known {m : M cfg (σ × List (Use ops)) α} {P : α → State cfg → List (Use ops) → Prop}
    {R : State cfg → _ → α → _ → Prop} (h : Asks I st l m P) (ho : OkIs m R) :
    Asks I st l m fun a st' l' => P a st' l' ∧ ∃ w w', R st w a w' := by
  intro w out
  refine ⟨(h w out).1, fun a ha => ⟨(h w out).2 a ha, ?_⟩⟩
  obtain ⟨w', h1, _⟩ := (ho ⟨st, (w, l), out⟩ a (m ⟨st, (w, l), out⟩).2).1 (by
    rw [← ha])
  exact ⟨_, _, h1⟩

theorem pure (a : α) (hI : I l) {Q : α → State cfg → List (Use ops) → Prop} (h : Q a st l) :
    Asks I st l (Pure.pure a : M cfg _ α) Q := fun _ _ => ⟨hI, fun _ e => by cases e; exact h⟩

theorem lift (x : Except Err α) (hI : I l) :
    Asks I st l (M.lift x : M cfg _ α) fun a st' l' => x = .ok a ∧ st' = st ∧ l' = l :=
  fun _ _ => ⟨hI, fun _ e => ⟨e, rfl, rfl⟩⟩

theorem okOr (x : Option α) (e : Err) (hI : I l) :
    Asks I st l (M.okOr x e : M cfg _ α) fun a st' l' => x = some a ∧ st' = st ∧ l' = l := by
  cases x with
  | none => exact fun _ _ => ⟨hI, fun _ e => by cases e⟩
  | some x => exact fun _ _ => ⟨hI, fun _ e => by cases e; exact ⟨rfl, rfl, rfl⟩⟩

theorem failIf (b : Bool) (e : Err) (hI : I l) :
    Asks I st l (M.failIf b e : M cfg _ Unit) fun _ st' l' => b = false ∧ st' = st ∧ l' = l := by
  cases b with
  | true => exact fun _ _ => ⟨hI, fun _ e => by cases e⟩
  | false => exact fun _ _ => ⟨hI, fun _ e => ⟨rfl, rfl, rfl⟩⟩

theorem fail (e : Err) (hI : I l) {Q : α → State cfg → List (Use ops) → Prop} :
    Asks I st l (M.fail e : M cfg _ α) Q := fun _ _ => ⟨hI, fun _ e => by cases e⟩

theorem get (hI : I l) :
    Asks I st l (M.get : M cfg _ (State cfg)) fun a st' l' => a = st ∧ st' = st ∧ l' = l :=
  fun _ _ => ⟨hI, fun _ e => by cases e; exact ⟨rfl, rfl, rfl⟩⟩

theorem modify (f : State cfg → State cfg) (hI : I l) :
    Asks I st l (M.modify f : M cfg _ Unit) fun _ st' l' => st' = f st ∧ l' = l :=
  fun _ _ => ⟨hI, fun _ _ => ⟨rfl, rfl⟩⟩

theorem writeAt (n : Nat) (b : Bytes) (hI : I l) :
    Asks I st l (Dpe.writeAt n b : M cfg _ Unit) fun _ st' l' => st' = st ∧ l' = l := by
  intro w out
  unfold Dpe.writeAt
  simp only
  rcases bufWrite out n b with _ | x
  · exact ⟨hI, fun _ e => by cases e⟩
  · exact ⟨hI, fun _ _ => ⟨rfl, rfl⟩⟩

theorem crypto (f : σ → Except CryptoErr α × σ) (u : Except CryptoErr α → Use ops)
    (h : ∀ r, I (l ++ [u r])) : Asks I st l (M.crypto (noted f u) : M cfg _ α)
      fun a st' l' => st' = st ∧ l' = l ++ [u (.ok a)] := by
  intro w out
  unfold M.crypto noted
  simp only
  have := h (f w).1
  rcases hf : f w with ⟨e | a, w'⟩
  · rw [hf] at this
    exact ⟨this, fun _ e => by cases e⟩
  · rw [hf] at this
    exact ⟨this, fun _ e => by cases e; exact ⟨rfl, rfl⟩⟩

theorem platform (f : σ → Except PlatErr α × σ) (u : Except PlatErr α → Use ops)
    (h : ∀ r, I (l ++ [u r])) : Asks I st l (M.platform (noted f u) : M cfg _ α)
      fun a st' l' => st' = st ∧ l' = l ++ [u (.ok a)] := by
  intro w out
  unfold M.platform noted
  simp only
  have := h (f w).1
  rcases hf : f w with ⟨e | a, w'⟩
  · rw [hf] at this
    exact ⟨this, fun _ e => by cases e⟩
  · rw [hf] at this
    exact ⟨this, fun _ e => by cases e; exact ⟨rfl, rfl⟩⟩

/-- The state is left alone and the protocol only extended. -/
def Grew (st : State cfg) (l : List (Use ops)) (st' : State cfg) (l' : List (Use ops)) : Prop :=
  st' = st ∧ ∃ es, l' = l ++ es

theorem ite {c : Prop} [Decidable c] {x y : M cfg (σ × List (Use ops)) α}
    {Q : α → State cfg → List (Use ops) → Prop} (hx : c → Asks I st l x Q)
    (hy : ¬ c → Asks I st l y Q) : Asks I st l (if c then x else y) Q := by
  split
  · exact hx ‹_›
  · exact hy ‹_›

end Asks

open Asks

/-! ### Common parts -/

section
variable {s0 : State cfg} {c : Cmd cfg} {loc : U32} {st : State cfg} {l : List (Use ops)}

theorem asks_loop (hc : c.needsHandle) (n : Nat) (hI : Proper s0 c loc l) :
    Asks (Proper s0 c loc) st l (genHandleLoop ops.logged n : M cfg _ Handle)
      fun _ st' l' => Grew st l st' l' := by
  induction n generalizing l with
  | zero => exact fail _ hI
  | succ n ih =>
    unfold genHandleLoop
    refine bind (crypto _ (fun _ => .rand) fun _ => hI.snoc hc) ?_
    rintro a _ _ hI' ⟨rfl, rfl⟩
    refine bind (get hI') ?_
    rintro _ _ _ _ ⟨rfl, rfl, rfl⟩
    refine ite (fun _ => pure _ hI' ⟨rfl, _, rfl⟩) fun _ => (ih hI').imp ?_
    rintro _ _ _ _ ⟨h1, es, rfl⟩
    exact ⟨h1, _, List.append_assoc _ _ _⟩

theorem asks_new (hc : c.needsHandle) (hI : Proper s0 c loc l) :
    Asks (Proper s0 c loc) st l (generateNewHandle ops.logged : M cfg _ Handle)
      fun _ st' l' => Grew st l st' l' := asks_loop hc 8 hI

theorem asks_roll (hc : c.needsHandle) (hI : Proper s0 c loc l) (x : Context cfg) :
    Asks (Proper s0 c loc) st l (rollHandle ops.logged x) fun _ st' l' => Grew st l st' l' := by
  unfold rollHandle
  refine ite (fun _ => pure _ hI ⟨rfl, [], by simp⟩) fun _ => bind (asks_new hc hI) ?_
  rintro a st' l' hI' h
  exact pure _ hI' h

theorem asks_chunks (hc : c.hashes) (bs : List Bytes) (hI : Proper s0 c loc l) :
    Asks (Proper s0 c loc) st l (hashChunks ops.logged bs : M cfg _ Unit)
      fun _ st' l' => Grew st l st' l' := by
  induction bs generalizing l with
  | nil => exact pure _ hI ⟨rfl, [], by simp⟩
  | cons b bs ih =>
    unfold hashChunks
    refine bind (crypto _ (fun _ => .hashUpdate b) fun _ => hI.snoc hc) ?_
    rintro _ _ _ hI' ⟨rfl, rfl⟩
    refine (ih hI').imp ?_
    rintro _ _ _ _ ⟨h1, es, rfl⟩
    exact ⟨h1, _, List.append_assoc _ _ _⟩

theorem asks_hashAll (hc : c.hashes) (bs : List Bytes) (hI : Proper s0 c loc l) :
    Asks (Proper s0 c loc) st l (hashAll ops.logged bs : M cfg _ Bytes)
      fun _ st' l' => Grew st l st' l' := by
  unfold hashAll
  refine bind (crypto _ (fun _ => .hasher) fun _ => hI.snoc hc) ?_
  rintro _ _ _ hI1 ⟨rfl, rfl⟩
  refine bind (crypto _ (fun _ => .hashInit) fun _ => hI1.snoc hc) ?_
  rintro _ _ _ hI2 ⟨rfl, rfl⟩
  refine bind (asks_chunks hc bs hI2) ?_
  rintro _ _ _ hI3 ⟨rfl, es, rfl⟩
  refine (crypto _ .hashFinish fun _ => hI3.snoc hc).imp ?_
  rintro _ _ _ _ ⟨rfl, rfl⟩
  exact ⟨rfl, _, by simp only [List.append_assoc]; rfl⟩

theorem asks_addTci (hc : c.hashes) (x : Context cfg) (m : BArr cfg.tciSize) (tl : U32)
    (hI : Proper s0 c loc l) : Asks (Proper s0 c loc) st l (addTci ops.logged x m tl)
      fun _ st' l' => Grew st l st' l' := by
  unfold addTci
  refine bind (failIf _ _ hI) ?_
  rintro _ _ _ _ ⟨_, rfl, rfl⟩
  refine bind (failIf _ _ hI) ?_
  rintro _ _ _ _ ⟨_, rfl, rfl⟩
  refine bind (asks_hashAll hc _ hI) ?_
  rintro _ _ _ hI' h
  refine bind (lift _ hI') ?_
  rintro _ _ _ _ ⟨_, rfl, rfl⟩
  exact pure _ hI' h

end

/-! ### The measurement digest -/

theorem fedBy_append (a b : List (Use ops)) : fedBy (a ++ b) = fedBy a ++ fedBy b := by
  induction a with
  | nil => rfl
  | cons u us ih => cases u <;> simp [fedBy, ih]

section
variable {c : Cmd cfg} {loc : U32} {st : State cfg} {l : List (Use ops)}

/-- The protocol was extended by calls that feed the hash with `bs`. -/
def FedWith (st : State cfg) (l : List (Use ops)) (bs : List Bytes) (st' : State cfg) (l' : List (Use ops)) :
    Prop :=
  st' = st ∧ ∃ mid, l' = l ++ mid ∧ (∀ u ∈ mid, u.feeds) ∧ fedBy mid = bs

theorem FedWith.trans {st' st'' : State cfg} {l' l'' : List (Use ops)} {a b : List Bytes}
    (h : FedWith st l a st' l') (h' : FedWith st' l' b st'' l'') : FedWith st l (a ++ b) st'' l'' := by
  obtain ⟨rfl, m1, rfl, h1, rfl⟩ := h
  obtain ⟨rfl, m2, rfl, h2, rfl⟩ := h'
  exact ⟨rfl, m1 ++ m2, by simp, by simpa using fun u hu => hu.elim (h1 u) (h2 u), fedBy_append _ _⟩

theorem asks_nodes (hc : c.hashes) (cs : List (Context cfg)) (i d : Bool) (hI : Proper st c loc l) :
    Asks (Proper st c loc) st l (hashNodes ops.logged (cs.map .ok) i d) fun r st' l' =>
      FedWith st l (cs.flatMap nodeChunks) st' l' ∧
      r = (i || cs.any (·.usesInfo), d || cs.any (·.usesDice)) := by
  refine ((?_ : Asks (Proper st c loc) st l (hashNodes ops.logged (cs.map .ok) i d) fun r st' l' =>
    FedWith st l (cs.flatMap nodeChunks) st' l').known (okIs_hashNodes cs i d)).imp ?_
  · induction cs generalizing l i d with
    | nil => exact pure _ hI ⟨rfl, [], by simp, by simp, rfl⟩
    | cons x cs ih =>
      rw [List.map_cons]
      unfold hashNodes
      refine bind (lift _ hI) ?_
      rintro y _ _ _ ⟨h, rfl, rfl⟩
      cases h
      refine bind (crypto _ (fun _ => .hashUpdate x.tci.bytes) fun _ => hI.snoc hc) ?_
      rintro _ _ _ hI1 ⟨rfl, rfl⟩
      refine bind (crypto _ (fun _ => .hashUpdate [boolByte x.allowX509]) fun _ => hI1.snoc hc) ?_
      rintro _ _ _ hI2 ⟨rfl, rfl⟩
      refine (ih _ _ hI2).imp fun a st' l' _ h => ?_
      have hb : nodeChunks x = [x.tci.bytes, [boolByte x.allowX509]] := by
        simp only [nodeChunks, Tci.bytes, boolByte, List.append_assoc, word_eq]
      rw [List.flatMap_cons, hb]
      refine FedWith.trans ⟨rfl, [.hashUpdate x.tci.bytes, .hashUpdate [boolByte x.allowX509]], ?_, ?_, rfl⟩ h
      · simp
      · simp [Use.feeds]
  · rintro r st' l' _ ⟨h1, _, _, _, h2⟩
    exact ⟨h1, h2⟩

theorem asks_dice (hc : c.hashes) {i : Nat} {path : List Nat} (he : Entitled st loc i c)
    (hp : Path st i path) (hd : ∃ j ∈ path, (st.at j).usesDice = true) (n : Nat) (off : U32)
    (hI : Proper st c loc l) :
    Asks (Proper st c loc) st l (diceLoop ops.logged n off : M cfg _ Unit) fun _ st' l' =>
      ∃ bs, FedWith st l bs st' l' := by
  induction n generalizing l off with
  | zero => exact fail _ hI
  | succ n ih =>
    intro w out
    unfold diceLoop
    have hcc : ops.logged.certChain off 2048 (w, l) = ((ops.certChain off 2048 w).1,
      ((ops.certChain off 2048 w).2, l ++ [.certChain off 2048])) := rfl
    have hI1 : Proper st c loc (l ++ [.certChain off 2048]) :=
      hI.snoc (.inr ⟨rfl, i, path, he, hp, hd⟩)
    have h1 : FedWith st l [] st (l ++ [.certChain off 2048]) := ⟨rfl, _, rfl, by simp [Use.feeds], rfl⟩
    simp only [hcc]
    rcases ops.certChain off 2048 w with ⟨e | ⟨len, chunk⟩, w'⟩
    · exact ⟨hI1, fun _ _ => ⟨_, h1⟩⟩
    · have : Asks (Proper st c loc) st (l ++ [.certChain off 2048]) (do
          M.failIf (decide (2048 < len.toNat)) (.internal .certChainChunkSliceOob)
          M.crypto (ops.logged.hashUpdate (chunk.toList.take len.toNat))
          diceLoop ops.logged n (off + len) : M cfg _ Unit) fun _ st' l' => ∃ bs, FedWith st l bs st' l' := by
        refine bind (failIf _ _ hI1) ?_
        rintro _ _ _ _ ⟨_, rfl, rfl⟩
        refine bind (crypto _ (fun _ => .hashUpdate (chunk.toList.take len.toNat)) fun _ => hI1.snoc hc) ?_
        rintro _ _ _ hI2 ⟨rfl, rfl⟩
        refine (ih _ hI2).imp ?_
        rintro _ st' l' _ ⟨bs, h2⟩
        refine ⟨_, (h1.trans (⟨rfl, [.hashUpdate (chunk.toList.take len.toNat)], rfl, ?_, rfl⟩ :
          FedWith _ _ [_] _ _)).trans h2⟩
        simp [Use.feeds]
      exact this w' out

theorem asks_measure (hc : c.hashes) {i : Nat} {path : List Nat} (he : Entitled st loc i c)
    (hp : Path st i path) (hI : Proper st c loc l) :
    Asks (Proper st c loc) st l (computeMeasurementHash ops.logged i : M cfg _ Bytes) fun d st' l' =>
      Grew st l st' l' ∧ DigestOf st path l' d := by
  obtain ⟨it, e, r⟩ := ChainIter.new_path hp
  have hl := hp.length_le
  have hi : it.items st.contexts (cfg.maxHandles + 2) = (path.map st.at).map .ok := by
    rw [items_rem _ r (show path.length < cfg.maxHandles + 2 by omega), List.map_map]; rfl
  have hfm : (path.map st.at).flatMap nodeChunks = path.flatMap fun i => nodeChunks (st.at i) := by
    rw [List.flatMap_map]
  unfold computeMeasurementHash
  refine bind (crypto _ (fun _ => .hasher) fun _ => hI.snoc hc) ?_
  rintro _ _ _ hI1 ⟨rfl, rfl⟩
  refine bind (crypto _ (fun _ => .hashInit) fun _ => hI1.snoc hc) ?_
  rintro _ _ _ hI2 ⟨rfl, rfl⟩
  refine bind (get hI2) ?_
  rintro _ _ _ _ ⟨rfl, rfl, rfl⟩
  refine bind (lift _ hI2) ?_
  rintro it' _ _ _ ⟨h, rfl, rfl⟩
  rw [e] at h
  cases h
  rw [hi]
  refine bind (asks_nodes hc _ _ _ hI2) ?_
  rintro ⟨info, dice⟩ st' l1 hI3 ⟨hf, hr⟩
  have hst := hf.1
  subst hst
  simp only [Prod.mk.injEq, Bool.false_or, List.any_map] at hr
  obtain ⟨rfl, rfl⟩ := hr
  have h1 : Asks (Proper st' c loc) st' l1 (M.when (path.any ((·.usesInfo) ∘ st'.at)) (do
      let b ← internalInfo ops.logged st'.support
      M.crypto (ops.logged.hashUpdate b)) () : M cfg _ Unit) fun _ st'' l' => ∃ bs, FedWith st' l1 bs st'' l' ∧
        (path.any ((·.usesInfo) ∘ st'.at) = false → bs = []) := by
    unfold M.when
    refine ite (fun h => ?_) fun h => pure _ hI3 ⟨[], ⟨rfl, [], by simp, by simp, rfl⟩, fun _ => rfl⟩
    have ha : c = .getProfile ∨ ∃ i path, Entitled st' loc i c ∧ Path st' i path ∧
        ∃ j ∈ path, (st'.at j).usesInfo = true := .inr ⟨i, path, he, hp, by simpa using h⟩
    unfold internalInfo getProfile
    refine bind (P := fun _ st'' l' => st'' = st' ∧ l' = l1 ++ [.vendorId] ++ [.vendorSku]) ?_ ?_
    · refine bind (P := fun _ st'' l' => st'' = st' ∧ l' = l1 ++ [.vendorId] ++ [.vendorSku]) ?_ ?_
      · refine bind (platform _ (fun _ => .vendorId) fun _ => hI3.snoc ha) ?_
        rintro _ _ _ hI4 ⟨rfl, rfl⟩
        refine bind (platform _ (fun _ => .vendorSku) fun _ => hI4.snoc ha) ?_
        rintro _ _ _ hI5 ⟨rfl, rfl⟩
        exact pure _ hI5 ⟨rfl, rfl⟩
      · rintro _ _ _ hI4 ⟨rfl, rfl⟩
        exact pure _ hI4 ⟨rfl, rfl⟩
    · rintro b _ _ hI4 ⟨rfl, rfl⟩
      refine (crypto _ (fun _ => .hashUpdate b) fun _ => hI4.snoc hc).imp ?_
      rintro _ _ _ _ ⟨rfl, rfl⟩
      refine ⟨[b], ⟨rfl, [.vendorId, .vendorSku, .hashUpdate b], by simp, ?_, rfl⟩, fun h' => ?_⟩
      · simp [Use.feeds]
      · rw [h] at h'; cases h'
  refine bind h1 ?_
  rintro _ st1 l2 hI4 ⟨bs1, hf1, hb1⟩
  have hst := hf1.1
  subst hst
  have h2 : Asks (Proper st1 c loc) st1 l2 (M.when (path.any ((·.usesDice) ∘ st1.at))
      (diceLoop ops.logged cfg.diceFuel 0) () : M cfg _ Unit) fun _ st'' l' => ∃ bs, FedWith st1 l2 bs st'' l' ∧
        (path.any ((·.usesDice) ∘ st1.at) = false → bs = []) := by
    unfold M.when
    refine ite (fun h => ?_) fun h => pure _ hI4 ⟨[], ⟨rfl, [], by simp, by simp, rfl⟩, fun _ => rfl⟩
    refine (asks_dice hc he hp (by simpa using h) _ _ hI4).imp ?_
    rintro _ _ _ _ ⟨bs, h'⟩
    exact ⟨bs, h', fun h'' => by rw [h] at h''; cases h''⟩
  refine bind h2 ?_
  rintro _ _ l3 hI5 ⟨bs2, hf2, hb2⟩
  have hst := hf2.1
  subst hst
  refine (crypto _ .hashFinish fun _ => hI5.snoc hc).imp ?_
  rintro d _ _ _ ⟨rfl, rfl⟩
  obtain ⟨_, mid, rfl, hm1, hm2⟩ := (hf.trans hf1).trans hf2
  refine ⟨⟨rfl, _, by simp only [List.append_assoc]; rfl⟩, l, mid, [], bs1 ++ bs2, ?_, hm1, ?_, ?_⟩
  · simp only [List.append_assoc, List.append_nil]; rfl
  · rw [hm2, hfm, List.append_assoc]
  · intro h
    rw [hb1, hb2]
    · rfl
    · rw [List.any_eq_false]
      intro j hj
      simp [(h j hj).2]
    · rw [List.any_eq_false]
      intro j hj
      simp [(h j hj).1]

end

/-! ### Certificates -/

theorem signRun_world {τ : Type} {cb : SignCb τ} {p : Profile} {t : Asn} {parts : List Asn} {csr fit : Bool}
    (hs : Sized t parts) {w : Writer} {x : τ} {r : Except Err Nat × (Writer × τ)}
    (h : SignRun cb p t parts csr w x fit r) : r.2.2 = x ∨ r.2.2 = (cb t.written csr x).2 := by
  have ht : sizeWidth (Asn.wrs parts).length = 3 → t.wr = t.written := by
    intro h
    have hl := hs.length
    rw [tl_three h] at hl
    have := sizeWidth_three.1 h
    exact Asn.short_written _ hs.short (by omega)
  cases h with
  | early h => exact .inl rfl
  | crypto h1 h2 => rw [ht h2] at h1; rw [h1]; exact .inr rfl
  | late h1 _ h3 => rw [ht h3] at h1; rw [h1]; exact .inr rfl
  | done h1 _ _ h3 => rw [ht h3] at h1; rw [h1]; exact .inr rfl

theorem cmsRun_world {τ : Type} {cb : SignCb τ} {p : Profile} {sid : SignerId} {t : Asn}
    {parts : List Asn} (hs : Sized t parts) {w : Writer} {x : τ} {r : Except Err Nat × (Writer × τ)}
    (h : CmsRun cb p sid t parts w x r) : r.2.2 = x ∨ r.2.2 = (cb t.written true x).2 ∨
      ∃ sig, (cb t.written true x).1 = .ok sig ∧
        r.2.2 = (cb (request p t sig).written false (cb t.written true x).2).2 := by
  have ht : sizeWidth (Asn.wrs parts).length = 3 → t.wr = t.written := by
    intro h
    have hl := hs.length
    rw [tl_three h] at hl
    have := sizeWidth_three.1 h
    exact Asn.short_written _ hs.short (by omega)
  have ht' : ∀ sig, (∀ n ∈ (Asn.wrs (signedParts p t sig)).length :: encapLens (signedOf p t sig),
        sizeWidth n = 3) → (signedOf p t sig).wr = (request p t sig).written := by
    intro sig h
    have h := h _ List.mem_cons_self
    have hl := signed_length p t sig
    rw [tl_three h] at hl
    have := sizeWidth_three.1 h
    exact Asn.short_written _ (hs.signed p sig) (by omega)
  cases h with
  | early h => exact .inl rfl
  | crypto h1 h2 => rw [ht h2] at h1; rw [h1]; exact .inr (.inl rfl)
  | mid h1 _ h3 => rw [ht h3] at h1; rw [h1]; exact .inr (.inl rfl)
  | crypto2 h1 h2 h3 h4 =>
    rw [ht h3] at h1; rw [ht' _ h4] at h2
    refine .inr (.inr ⟨_, by rw [h1], ?_⟩)
    rw [h1, h2]
  | late h1 h2 _ h3 h4 =>
    rw [ht h3] at h1; rw [ht' _ h4] at h2
    refine .inr (.inr ⟨_, by rw [h1], ?_⟩)
    rw [h1, h2]
  | done h1 h2 _ _ h3 h4 _ =>
    rw [ht h3] at h1; rw [ht' _ h4] at h2
    refine .inr (.inr ⟨_, by rw [h1], ?_⟩)
    rw [h1, h2]

/-- What a command asks the certificate generator for. -/
inductive Job (st : State cfg) (c : Cmd cfg) (loc : U32) (l : List (Use ops)) : CertKind → CertArgs → Prop
  | leaf {x : CertifyCmd} {kind : CertKind} : c = .certify x → Format x.format kind →
      Job st c loc l kind (leafArgs st x.handle loc x.label)
  | exported {x : DeriveCmd cfg} {u : BArr 48 × U32} : c = .derive x → .ueid (.ok u) ∈ l →
      Job st c loc l .exportedX509 (exportedArgs st x.handle loc (u.1.toList.take u.2.toNat))

section
variable {c : Cmd cfg} {loc : U32} {st : State cfg} {l : List (Use ops)} {kind : CertKind} {a : CertArgs}

theorem Job.hashes (h : Job st c loc l kind a) : c.hashes := by
  cases h with
  | leaf h _ => subst h; trivial
  | exported h _ => subst h; trivial

theorem Job.certifies (h : Job st c loc l kind a) : c.certifies := by
  cases h with
  | leaf h _ => subst h; trivial
  | exported h _ => subst h; trivial

theorem Job.append (h : Job st c loc l kind a) (es : List (Use ops)) : Job st c loc (l ++ es) kind a := by
  cases h with
  | leaf h h' => exact .leaf h h'
  | exported h h' => exact .exported h (List.mem_append_left _ h')

theorem Job.attests (h : Job st c loc l kind a) {D : Draft}
    (hk : ∃ k, KeyFrom c l D.digest k ∧ .publicKey k (.ok D.key) ∈ l) :
    Attests st c l D.path D.digest (D.subject kind a st) := by
  refine ⟨rfl, hk, ?_, ?_, ?_⟩
  · cases h with
    | leaf h _ => subst h; rfl
    | exported h hu => subst h; exact ⟨_, hu, rfl⟩
  · cases h with
    | leaf h hf =>
      subst h
      rcases hf with ⟨_, rfl⟩ | ⟨_, rfl⟩ <;> simp [Draft.subject]
    | exported h _ => subst h; simp [Draft.subject]
  · cases h <;> rfl

theorem asks_certKey (hj : Job st c loc l kind a) {path : List Nat} {d : Bytes} (ho : Owns st c loc l path d)
    (hI : Proper st c loc l) :
    Asks (Proper st c loc) st l (certKey ops.logged kind.exported a d : M cfg _ _) fun r st' l' =>
      Grew st l st' l' ∧ ∃ k, KeyFrom c l' d k ∧ .publicKey k (.ok r.1) ∈ l' := by
  have leaf : ∀ x, c = .certify x → Asks (Proper st c loc) st l (do
      let cdi ← M.crypto (ops.logged.deriveCdi d (ascii "DPE"))
      let key ← M.crypto (ops.logged.deriveKeyPair cdi x.label (keyPurpose cfg.profile))
      let k ← M.crypto (ops.logged.publicKey key)
      Pure.pure (k, none) : M cfg _ (PubKey × Option (BArr 32))) fun r st' l' =>
      Grew st l st' l' ∧ ∃ k, KeyFrom c l' d k ∧ .publicKey k (.ok r.1) ∈ l' := by
    rintro x rfl
    refine bind (crypto _ (.deriveCdi d (ascii "DPE")) fun _ => hI.snoc ⟨rfl, .inr ⟨x, rfl⟩, path, ho⟩) ?_
    rintro cdi _ _ hI1 ⟨rfl, rfl⟩
    refine bind (crypto _ (Use.deriveKeyPair (ops := ops) cdi x.label (keyPurpose cfg.profile)) fun r =>
      hI1.snoc (u := Use.deriveKeyPair (ops := ops) cdi x.label (keyPurpose cfg.profile) r) ⟨rfl, .inr ⟨x, rfl, rfl⟩, d, by simp⟩) ?_
    rintro key _ _ hI2 ⟨rfl, rfl⟩
    have hkey : KeyFrom (ops := ops) (cfg := cfg) (.certify x) (l ++ [.deriveCdi d (ascii "DPE") (.ok cdi)] ++
      [.deriveKeyPair cdi x.label (keyPurpose cfg.profile) (.ok key)]) d key := ⟨cdi, by simp, by simp⟩
    refine bind (crypto _ (Use.publicKey (ops := ops) key) fun r =>
      hI2.snoc (u := Use.publicKey (ops := ops) key r) ⟨hj.certifies, path, d, (ho.append _).append _, hkey⟩) ?_
    rintro k _ _ hI3 ⟨rfl, rfl⟩
    refine pure _ hI3 ⟨⟨rfl, _, by simp only [List.append_assoc]; rfl⟩, key, hkey.append _, ?_⟩
    simp
  cases hj with
  | leaf h hf =>
    rcases hf with ⟨_, rfl⟩ | ⟨_, rfl⟩
    · exact leaf _ h
    · exact leaf _ h
  | @exported x u h hu =>
    subst h
    refine bind (crypto _ (.deriveExportedCdi d (ascii "Exported CDI")) fun _ =>
      hI.snoc ⟨rfl, ⟨x, rfl⟩, path, ho⟩) ?_
    rintro hd _ _ hI1 ⟨rfl, rfl⟩
    refine bind (crypto _ (.deriveKeyPairExported hd (exportPurpose cfg.profile)
      (exportPurpose cfg.profile)) fun _ => hI1.snoc ⟨rfl, rfl, d, by simp⟩) ?_
    rintro key _ _ hI2 ⟨rfl, rfl⟩
    have hkey : KeyFrom (ops := ops) (.derive x) (l ++ [.deriveExportedCdi d (ascii "Exported CDI") (.ok hd)] ++
      [.deriveKeyPairExported hd (exportPurpose cfg.profile) (exportPurpose cfg.profile) (.ok key)]) d key :=
      ⟨hd, by simp, by simp⟩
    refine bind (crypto _ (Use.publicKey (ops := ops) key) fun r =>
      hI2.snoc (u := Use.publicKey (ops := ops) key r) ⟨trivial, path, d, (ho.append _).append _, hkey⟩) ?_
    rintro k _ _ hI3 ⟨rfl, rfl⟩
    refine pure _ hI3 ⟨⟨rfl, _, by simp only [List.append_assoc]; rfl⟩, key, hkey.append _, ?_⟩
    simp

theorem asks_writer {I : List (Use ops) → Prop} {m : W (σ × List (Use ops)) α}
    (h : ∀ w win, I (m (Writer.new win, (w, l))).2.2.2 ∧
      ∃ es, (m (Writer.new win, (w, l))).2.2.2 = l ++ es) :
    Asks I st l (runWriter m : M cfg _ α) fun _ st' l' => Grew st l st' l' := by
  intro w out
  exact ⟨(h w out).1, fun _ _ => ⟨rfl, (h w out).2⟩⟩

/-- The signature with the derived key. -/
theorem cb_derived {x : CertifyCmd} {path : List Nat} {d : Bytes} {s : Subject cfg} {hd : Option (BArr 32)}
    (hI : Proper st (.certify x) loc l) (ho : Owns st (.certify x) loc l path d)
    (hs : Attests st (.certify x) l path d s) (hf : x.format = 1) (w : σ) :
    ∃ es, (signCb ops.logged (leafArgs st x.handle loc x.label) d false hd
        (requestInfo cfg.profile s).written true (w, l)).2.2 = l ++ es ∧
      Proper st (.certify x) loc (l ++ es) ∧
      ∀ sig, (signCb ops.logged (leafArgs st x.handle loc x.label) d false hd
        (requestInfo cfg.profile s).written true (w, l)).1 = .ok sig → ∃ k,
          KeyFrom (cfg := cfg) (.certify x) (l ++ es) d k ∧
          .sign k (.buffer (requestInfo cfg.profile s).written) (.ok sig) ∈ l ++ es := by
  unfold signCb thenCall
  simp only [if_true, Bool.false_eq_true, if_false]
  have e1 : ops.logged.deriveCdi d (leafArgs st x.handle loc x.label).cdiLabel (w, l) =
    ((ops.deriveCdi d (ascii "DPE") w).1, ((ops.deriveCdi d (ascii "DPE") w).2,
      l ++ [.deriveCdi d (ascii "DPE") (ops.deriveCdi d (ascii "DPE") w).1])) := rfl
  rw [e1]
  have hI1 := fun r => hI.snoc (u := .deriveCdi d (ascii "DPE") r) ⟨rfl, .inr ⟨x, rfl⟩, path, ho⟩
  rcases ops.deriveCdi d (ascii "DPE") w with ⟨e | cdi, w1⟩
  · exact ⟨_, rfl, hI1 _, fun _ h => by cases h⟩
  simp only
  have e2 : ops.logged.deriveKeyPair cdi (leafArgs st x.handle loc x.label).keyLabel
      (leafArgs st x.handle loc x.label).context (w1, l ++ [.deriveCdi d (ascii "DPE") (.ok cdi)]) =
    ((ops.deriveKeyPair cdi x.label (keyPurpose cfg.profile) w1).1,
      ((ops.deriveKeyPair cdi x.label (keyPurpose cfg.profile) w1).2,
      l ++ [.deriveCdi d (ascii "DPE") (.ok cdi)] ++ [.deriveKeyPair cdi x.label (keyPurpose cfg.profile)
        (ops.deriveKeyPair cdi x.label (keyPurpose cfg.profile) w1).1])) := rfl
  rw [e2]
  have hI2 := fun r => (hI1 (.ok cdi)).snoc
    (u := .deriveKeyPair cdi x.label (keyPurpose cfg.profile) r) ⟨rfl, .inr ⟨x, rfl, rfl⟩, d, by simp⟩
  rcases ops.deriveKeyPair cdi x.label (keyPurpose cfg.profile) w1 with ⟨e | key, w2⟩
  · exact ⟨_, List.append_assoc _ _ _, by rw [← List.append_assoc]; exact hI2 _, fun _ h => by cases h⟩
  simp only
  have hkey : KeyFrom (ops := ops) (cfg := cfg) (.certify x) (l ++ [.deriveCdi d (ascii "DPE") (.ok cdi)] ++
    [.deriveKeyPair cdi x.label (keyPurpose cfg.profile) (.ok key)]) d key := ⟨cdi, by simp, by simp⟩
  have hI3 := fun r => (hI2 (.ok key)).snoc
    (u := .sign key (.buffer (requestInfo cfg.profile s).written) r)
    ⟨path, d, (ho.append _).append _, hkey, hf, s, (hs.append _).append _, rfl⟩
  have e3 : ops.logged.sign key (.buffer (requestInfo cfg.profile s).written) (w2,
      l ++ [.deriveCdi d (ascii "DPE") (.ok cdi)] ++
      [.deriveKeyPair cdi x.label (keyPurpose cfg.profile) (.ok key)]) =
    ((ops.sign key (.buffer (requestInfo cfg.profile s).written) w2).1,
      ((ops.sign key (.buffer (requestInfo cfg.profile s).written) w2).2,
      l ++ [.deriveCdi d (ascii "DPE") (.ok cdi)] ++ [.deriveKeyPair cdi x.label (keyPurpose cfg.profile)
        (.ok key)] ++ [.sign key (.buffer (requestInfo cfg.profile s).written)
          (ops.sign key (.buffer (requestInfo cfg.profile s).written) w2).1])) := rfl
  rw [e3]
  refine ⟨[.deriveCdi d (ascii "DPE") (.ok cdi), .deriveKeyPair cdi x.label (keyPurpose cfg.profile)
    (.ok key), .sign key (.buffer (requestInfo cfg.profile s).written)
      (ops.sign key (.buffer (requestInfo cfg.profile s).written) w2).1], by simp, ?_, ?_⟩
  · have := hI3 (ops.sign key (.buffer (requestInfo cfg.profile s).written) w2).1
    simpa using this
  · intro sig h
    exact ⟨key, ⟨cdi, by simp, by simp⟩, by simp [← h]⟩

theorem asks_generate {D : Draft} (wf : Links st) (hp : Path st D.slot D.path)
    (hk : keyFits cfg.profile D.key) (issuer : Bytes) (hkind : kind ≠ .leafCsr)
    (hj : Job st c loc l kind a) (ho : Owns st c loc l D.path D.digest)
    (hs : Attests st c l D.path D.digest (D.subject kind a st)) (hI : Proper st c loc l) :
    Asks (Proper st c loc) st l (generate (signCb ops.logged a D.digest kind.exported D.exportedCdi)
      cfg.profile a.critDice (D.data kind a st issuer) none) fun _ st' l' => Grew st l st' l' := by
  unfold generate
  refine bind (failIf _ _ hI) ?_
  rintro _ st l _ ⟨_, rfl, rfl⟩
  refine bind (P := fun _ st' l' => Grew st l st' l') (asks_writer fun w win => ?_) ?_
  · obtain ⟨parts, hsz, hrun⟩ := draft_cert_run (kind := kind) (a := a) (ops := ops.logged) wf hp hk
      issuer (w, l) win
    have hw := signRun_world hsz hrun
    have e : ∀ x : Except Err Nat × (Writer × (σ × List (Use ops))), x = encCertOrCsr
        (signCb ops.logged a D.digest kind.exported D.exportedCdi) cfg.profile a.critDice
          { D.data kind a st issuer with serial := (serialText D.nameHash).take 20 } false
          (Writer.new win, (w, l)) → Proper st c loc x.2.2.2 ∧ ∃ es, x.2.2.2 = l ++ es := by
      rintro x rfl
      rcases hw with hw | hw
      · rw [hw]
        exact ⟨hI, [], by simp⟩
      · rw [hw]
        refine ⟨hI.snoc (u := .signAlias (.buffer (D.tbs kind a st issuer).written)) ⟨D.path, D.digest, _,
          ho, hs, ?_⟩, _, rfl⟩
        cases hj with
        | leaf h hf =>
          subst h
          rcases hf with ⟨hf, rfl⟩ | ⟨hf, rfl⟩
          · exact .inl ⟨hf, _, _, _, rfl⟩
          · exact absurd rfl hkind
        | exported h _ => subst h; exact ⟨_, _, _, rfl⟩
    exact e _ rfl
  · rintro n _ _ hI' ⟨rfl, es, rfl⟩
    refine (lift _ hI').imp ?_
    rintro _ _ _ _ ⟨_, rfl, rfl⟩
    exact ⟨rfl, es, rfl⟩

theorem asks_request {D : Draft} (wf : Links st) (hp : Path st D.slot D.path)
    (hk : keyFits cfg.profile D.key) (hi : ∀ i, D.signer ≠ .issuerAndSerial i []) {x : CertifyCmd}
    (hc : c = .certify x) (hf : x.format = 1) (ho : Owns st c loc l D.path D.digest)
    (ha : a = leafArgs st x.handle loc x.label)
    (hs : Attests st c l D.path D.digest (D.subject .leafCsr a st)) (hI : Proper st c loc l) :
    Asks (Proper st c loc) st l (generate (signCb ops.logged a D.digest false D.exportedCdi)
      cfg.profile a.critDice (D.data .leafCsr a st []) (some D.signer)) fun _ st' l' =>
        Grew st l st' l' := by
  subst hc ha
  unfold generate
  refine bind (P := fun _ st' l' => Grew st l st' l') (asks_writer fun w win => ?_) ?_
  · obtain ⟨parts, hsz, hrun⟩ := draft_cms_run (a := leafArgs st x.handle loc x.label)
      (ops := ops.logged) wf hp hk hi (w, l) win
    have hw := cmsRun_world hsz hrun
    have e : ∀ y : Except Err Nat × (Writer × (σ × List (Use ops))), y = encCms
        (signCb ops.logged (leafArgs st x.handle loc x.label) D.digest CertKind.leafCsr.exported
          D.exportedCdi) cfg.profile (leafArgs st x.handle loc x.label).critDice
          (D.data .leafCsr (leafArgs st x.handle loc x.label) st []) D.signer
          (Writer.new win, (w, l)) → Proper st (.certify x) loc y.2.2.2 ∧ ∃ es, y.2.2.2 = l ++ es := by
      rintro y rfl
      obtain ⟨es, h1, h2, h3⟩ := cb_derived (hd := D.exportedCdi) hI ho hs hf w
      rcases hw with hw | hw | ⟨sig, hw1, hw⟩
      · rw [hw]
        exact ⟨hI, [], by simp⟩
      · rw [hw]
        have h1' : (signCb ops.logged (leafArgs st x.handle loc x.label) D.digest
          CertKind.leafCsr.exported D.exportedCdi
          (D.info (leafArgs st x.handle loc x.label) st).written true (w, l)).2.2 = l ++ es := h1
        rw [h1']
        exact ⟨h2, es, rfl⟩
      · rw [hw]
        obtain ⟨k, h4, h5⟩ := h3 sig hw1
        have h1' : (signCb ops.logged (leafArgs st x.handle loc x.label) D.digest
          CertKind.leafCsr.exported D.exportedCdi
          (D.info (leafArgs st x.handle loc x.label) st).written true (w, l)).2.2 = l ++ es := h1
        have h6 : (signCb ops.logged (leafArgs st x.handle loc x.label) D.digest
          CertKind.leafCsr.exported D.exportedCdi
          (request cfg.profile (D.info (leafArgs st x.handle loc x.label) st) sig).written false
          (signCb ops.logged (leafArgs st x.handle loc x.label) D.digest
          CertKind.leafCsr.exported D.exportedCdi
          (D.info (leafArgs st x.handle loc x.label) st).written true (w, l)).2).2.2 = l ++ es ++
            [.signAlias (.buffer (request cfg.profile
              (D.info (leafArgs st x.handle loc x.label) st) sig).written)] := by
          rw [← h1']; rfl
        rw [h6]
        refine ⟨h2.snoc ⟨D.path, D.digest, _, ho.append _, hs.append _, .inr ⟨hf, k, sig, h4, h5, rfl⟩⟩,
          _, List.append_assoc _ _ _⟩
    exact e _ rfl
  · rintro n _ _ hI' ⟨rfl, es, rfl⟩
    refine (lift _ hI').imp ?_
    rintro _ _ _ _ ⟨_, rfl, rfl⟩
    exact ⟨rfl, es, rfl⟩

theorem asks_finish {D : Draft} (wf : Links st) (hp : Path st D.slot D.path)
    (hk : keyFits cfg.profile D.key) (hi : ∀ i, D.signer ≠ .issuerAndSerial i [])
    (hj : Job st c loc l kind a) (he : ∃ i, Entitled st loc i c) (ho : Owns st c loc l D.path D.digest)
    (hs : Attests st c l D.path D.digest (D.subject kind a st)) (hI : Proper st c loc l) :
    Asks (Proper st c loc) st l (finishCert ops.logged
      (signCb ops.logged a D.digest kind.exported D.exportedCdi) kind a.critDice (D.data kind a st [])
      D.signer) fun _ st' l' => Grew st l st' l' := by
  unfold finishCert
  refine ite (fun h => ?_) fun h => ?_
  · subst h
    cases hj with
    | leaf h hf =>
      rcases hf with ⟨_, hf⟩ | ⟨hf, _⟩
      · cases hf
      · exact asks_request wf hp hk hi h hf ho rfl hs hI
  · unfold getIssuer
    refine bind (P := fun _ st' l' => st' = st ∧ l' = l ++ [.issuerName]) ?_ ?_
    · refine bind (platform _ (fun _ => .issuerName) fun _ => hI.snoc ⟨hj.certifies, he, ?_⟩) ?_
      · rintro x rfl
        cases hj with
        | leaf h' hf =>
          cases h'
          rcases hf with ⟨hf, _⟩ | ⟨_, hf⟩
          · exact hf
          · exact absurd hf h
        | exported h' _ => cases h'
      · rintro r _ _ hI' ⟨rfl, rfl⟩
        refine bind (failIf _ _ hI') ?_
        rintro _ _ _ _ ⟨_, rfl, rfl⟩
        exact pure _ hI' ⟨rfl, rfl⟩
    · rintro issuer _ _ hI' ⟨rfl, rfl⟩
      refine (asks_generate wf hp hk issuer h (hj.append _) (ho.append _) (hs.append _) hI').imp ?_
      rintro _ _ _ _ ⟨rfl, es, rfl⟩
      exact ⟨rfl, _, List.append_assoc _ _ _⟩

theorem asks_altName (ha : c.certifies ∧ ∃ i, Entitled st loc i c) (hI : Proper st c loc l) :
    Asks (Proper st c loc) st l (getAltName ops.logged : M cfg _ _) fun _ st' l' =>
      st' = st ∧ l' = l ++ [.subjectAltName] := by
  intro w out
  have hI' := hI.snoc (u := .subjectAltName) ha
  have e : ops.logged.subjectAltName (w, l) = ((ops.subjectAltName w).1,
    ((ops.subjectAltName w).2, l ++ [.subjectAltName])) := rfl
  unfold getAltName
  simp only [e]
  rcases ops.subjectAltName w with ⟨e | n, w'⟩
  · cases e <;> exact ⟨hI', fun _ _ => ⟨rfl, rfl⟩⟩
  · exact ⟨hI', fun _ _ => ⟨rfl, rfl⟩⟩

theorem asks_subjectName (hc : c.hashes) (b : Bool) (k : PubKey) (hI : Proper st c loc l) :
    Asks (Proper st c loc) st l (subjectName ops.logged b k : M cfg _ Name) fun n st' l' =>
      Grew st l st' l' ∧ k.isMldsa = ops.sigAlgMldsa ∧ ∃ d, n =
        ⟨.printable (if b then ascii "DPE Exported CDI" else ascii "DPE Leaf"), .printable (serialText d)⟩ := by
  refine ((?_ : Asks (Proper st c loc) st l (subjectName ops.logged b k : M cfg _ Name) fun n st' l' =>
    Grew st l st' l').known (okIs_subjectName b k)).imp ?_
  · unfold subjectName pubkeySerial
    refine bind (P := fun _ st' l' => Grew st l st' l') ?_ fun _ _ _ hI' h => pure _ hI' h
    refine bind (failIf _ _ hI) ?_
    rintro _ _ _ _ ⟨_, rfl, rfl⟩
    refine bind (failIf _ _ hI) ?_
    rintro _ _ _ _ ⟨_, rfl, rfl⟩
    refine bind (asks_hashAll hc _ hI) ?_
    rintro _ _ _ hI' h
    refine (lift _ hI').imp ?_
    rintro _ _ _ _ ⟨_, rfl, rfl⟩
    exact h
  · rintro n st' l' _ ⟨h1, _, _, _, h2, d, _, _, h3⟩
    exact ⟨h1, h2, d, h3⟩

theorem asks_subjectKeyId (hc : c.hashes) (k : PubKey) (hI : Proper st c loc l) :
    Asks (Proper st c loc) st l (subjectKeyIdOf ops.logged k : M cfg _ Bytes) fun r st' l' =>
      Grew st l st' l' ∧ ∃ d : Bytes, r = d.take 20 := by
  unfold subjectKeyIdOf
  refine bind (asks_hashAll hc _ hI) ?_
  rintro d _ _ hI' h
  refine bind (failIf _ _ hI') ?_
  rintro _ _ _ _ ⟨_, rfl, rfl⟩
  exact pure _ hI' ⟨h, d, rfl⟩

/-- The ingredients that the protocol vouches for. -/
structure Ready (st : State cfg) (c : Cmd cfg) (loc : U32) (kind : CertKind) (a : CertArgs)
    (path : List Nat) (d : Bytes) (k : PubKey) (l0 l : List (Use ops)) : Prop where
  job : Job st c loc l kind a
  owns : Owns st c loc l path d
  key : ∃ key, KeyFrom c l d key ∧ .publicKey key (.ok k) ∈ l
  grew : ∃ es, l = l0 ++ es

theorem Ready.grows {path : List Nat} {d : Bytes} {k : PubKey} {l0 l' : List (Use ops)}
    (h : Ready st c loc kind a path d k l0 l) (hg : ∃ es, l' = l ++ es) :
    Ready st c loc kind a path d k l0 l' := by
  obtain ⟨es, rfl⟩ := hg
  obtain ⟨key, h1, h2⟩ := h.key
  obtain ⟨es', h3⟩ := h.grew
  refine ⟨h.job.append _, h.owns.append _, ⟨key, h1.append _, List.mem_append_left _ h2⟩, es' ++ es, ?_⟩
  rw [h3, List.append_assoc]

theorem asks_createCert (wf : Links st) (hfit : AlgorithmFits cfg ops) (hser : SerialGiven ops)
    (hj : Job st c loc l kind a) (he : ∀ i, Resolves st a.handle a.locality i → Entitled st loc i c)
    (hI : Proper st c loc l) :
    Asks (Proper st c loc) st l (createCert ops.logged kind a : M cfg _ CertResult) fun _ st' l' =>
      Grew st l st' l' := by
  unfold createCert
  refine bind (get hI) ?_
  rintro _ st l _ ⟨rfl, rfl, rfl⟩
  refine bind (lift _ hI) ?_
  rintro i st l _ ⟨hr, rfl, rfl⟩
  have hr := findActive_iff.1 hr
  obtain ⟨path, hp⟩ := wf.path i (live_of_active hr.1.1)
  have hen := he i hr
  refine bind (asks_measure hj.hashes hen hp hI) ?_
  rintro d st l1 hI1 ⟨⟨rfl, es1, rfl⟩, hd⟩
  have ho : Owns st c loc (l ++ es1) path d := ⟨i, hen, hp, hd⟩
  refine bind (asks_certKey (hj.append _) ho hI1) ?_
  rintro ⟨k, h⟩ st l2 hI2 ⟨⟨rfl, es2, e2⟩, hkey⟩
  have hR : Ready st c loc kind a path d k l l2 := by
    subst e2
    exact ⟨(hj.append _).append _, ho.append _, hkey, _, List.append_assoc _ _ _⟩
  clear ho e2 hkey hI1 hd
  refine bind (asks_subjectName hj.hashes _ k hI2) ?_
  rintro n st l3 hI3 ⟨⟨rfl, hg⟩, hml, nd, rfl⟩
  have hR := hR.grows hg
  clear hg
  refine bind (asks_subjectKeyId hj.hashes k hI3) ?_
  rintro ski st l4 hI4 ⟨⟨rfl, hg⟩, kd, rfl⟩
  have hR := hR.grows hg
  clear hg
  refine bind (platform _ (fun _ => .issuerKeyId) fun _ => hI4.snoc ⟨hj.certifies, i, hen⟩) ?_
  rintro aki st l5 hI5 ⟨rfl, hg⟩
  have hR := hR.grows ⟨_, hg⟩
  clear hg
  refine bind (asks_altName ⟨hj.certifies, i, hen⟩ hI5) ?_
  rintro alt st l6 hI6 ⟨rfl, hg⟩
  have hR := hR.grows ⟨_, hg⟩
  clear hg
  refine bind (get hI6) ?_
  rintro _ st l6 _ ⟨rfl, rfl, rfl⟩
  refine bind (lift _ hI6) ?_
  rintro i' st l6 _ ⟨hr', rfl, rfl⟩
  rw [findActive_iff.2 hr] at hr'
  cases hr'
  refine bind (lift _ hI6) ?_
  rintro _ st l6 _ ⟨_, rfl, rfl⟩
  refine bind (platform _ (fun _ => .certValidity) fun _ => hI6.snoc ⟨hj.certifies, i, hen⟩) ?_
  rintro val st l7 hI7 ⟨rfl, hg⟩
  have hR := hR.grows ⟨_, hg⟩
  clear hg
  refine bind ((platform _ (fun _ => .signerId) fun _ => hI7.snoc ⟨hj.certifies, i, hen⟩).known
    (OkIs.platform _)) ?_
  rintro sid st l8 hI8 ⟨⟨rfl, hg⟩, w, w', hsid⟩
  have hR := hR.grows ⟨_, hg⟩
  clear hg
  have hi : ∀ j, sid ≠ .issuerAndSerial j [] := by
    rintro j rfl
    have : ops.signerId w.1 = (.ok (.issuerAndSerial j []), (ops.signerId w.1).2) :=
      Prod.ext (congrArg Prod.fst hsid : _) rfl
    exact hser _ _ _ this
  let D : Draft := ⟨i, path, d, k, h, nd, kd, aki, alt, val, sid⟩
  have hk : keyFits cfg.profile D.key := by
    show keyFits cfg.profile k
    unfold keyFits
    rw [hml]
    exact hfit
  have hfin := asks_finish (D := D) wf hp hk hi hR.job ⟨i, hen⟩ hR.owns (hR.job.attests (D := D) hR.key) hI8
  refine bind hfin ?_
  rintro n st l9 hI' ⟨rfl, hg⟩
  have hg : Grew st l st l9 := ⟨rfl, (hR.grows hg).grew⟩
  refine ite (fun _ => bind (okOr _ _ hI') ?_) fun _ => pure _ hI' hg
  rintro _ _ _ _ ⟨_, rfl, rfl⟩
  exact pure _ hI' hg

theorem asks_runCert (wf : Links st) (hfit : AlgorithmFits cfg ops) (hser : SerialGiven ops)
    (hj : Job st c loc l kind a) (he : ∀ i, Resolves st a.handle a.locality i → Entitled st loc i c)
    (hI : Proper st c loc l) (base : Nat) :
    Asks (Proper st c loc) st l (runCert (ops.logged.env cfg) kind a base) fun _ st' l' =>
      Grew st l st' l' := by
  intro w out
  have := asks_createCert wf hfit hser hj he hI w (out.drop base)
  exact ⟨this.1, fun r h => ⟨rfl, (this.2 r h).2⟩⟩

end

/-! ### Commands -/

/-- The program asks nothing. -/
def Quiet (m : M cfg (σ × List (Use ops)) α) : Prop :=
  ∀ (I : List (Use ops) → Prop) st l, I l → Asks I st l m fun _ _ _ => True

namespace Quiet

theorem bind {x : M cfg (σ × List (Use ops)) α} {f : α → M cfg (σ × List (Use ops)) β}
    (hx : Quiet x) (hf : ∀ a, Quiet (f a)) : Quiet (x >>= f) :=
  fun I st l h => Asks.bind (hx I st l h) fun a st' l' h' _ => hf a I st' l' h'

theorem pure (a : α) : Quiet (Pure.pure a : M cfg (σ × List (Use ops)) α) :=
  fun _ _ _ h => Asks.pure a h trivial

theorem lift (x : Except Err α) : Quiet (M.lift x : M cfg (σ × List (Use ops)) α) :=
  fun _ _ _ h => (Asks.lift x h).imp fun _ _ _ _ _ => trivial

theorem okOr (x : Option α) (e : Err) : Quiet (M.okOr x e : M cfg (σ × List (Use ops)) α) :=
  fun _ _ _ h => (Asks.okOr x e h).imp fun _ _ _ _ _ => trivial

theorem get : Quiet (M.get : M cfg (σ × List (Use ops)) (State cfg)) :=
  fun _ _ _ h => (Asks.get h).imp fun _ _ _ _ _ => trivial

theorem modify (f : State cfg → State cfg) : Quiet (M.modify f : M cfg (σ × List (Use ops)) Unit) :=
  fun _ _ _ h => (Asks.modify f h).imp fun _ _ _ _ _ => trivial

theorem writeAt (n : Nat) (b : Bytes) : Quiet (Dpe.writeAt n b : M cfg (σ × List (Use ops)) Unit) :=
  fun _ _ _ h => (Asks.writeAt n b h).imp fun _ _ _ _ _ => trivial

end Quiet

section
variable {loc : U32} {st : State cfg} {l : List (Use ops)}

theorem asks_sign (wf : Links st) (x : SignCmd) (hI : Proper st (.sign x) loc l) :
    Asks (Proper st (.sign x) loc) st l (signCmd ops.logged x loc) fun _ _ _ => True := by
  have hh : Cmd.hashes (.sign x : Cmd cfg) := trivial
  have hn : Cmd.needsHandle (.sign x : Cmd cfg) := trivial
  unfold signCmd
  refine bind (lift _ hI) ?_
  rintro data st l _ ⟨hd, rfl, rfl⟩
  refine bind (get hI) ?_
  rintro _ st l _ ⟨rfl, rfl, rfl⟩
  refine bind (lift _ hI) ?_
  rintro i st l _ ⟨hr, rfl, rfl⟩
  refine bind (okOr _ _ hI) ?_
  rintro ctx st l _ ⟨hc, rfl, rfl⟩
  refine bind (failIf _ _ hI) ?_
  rintro _ st l _ ⟨ht, rfl, rfl⟩
  have hr := findActive_iff.1 hr
  obtain ⟨path, hp⟩ := wf.path i (live_of_active hr.1.1)
  have hen : Entitled st loc i (.sign x) := by
    refine ⟨hr, ?_⟩
    rw [at_of_getElem? hc]
    cases h : ctx.ctype with
    | normal => rfl
    | simulation => rw [h] at ht; cases ht
  have hm : data = x.message := (signData_iff.1 hd).2
  subst hm
  refine bind (P := fun _ _ _ => True) ?_ ?_
  · unfold signWith
    rw [keyContext_eq]
    refine bind (asks_measure hh hen hp hI) ?_
    rintro d st l1 hI1 ⟨⟨rfl, es, rfl⟩, hd⟩
    have ho : Owns st (.sign x) loc (l ++ es) path d := ⟨i, hen, hp, hd⟩
    refine bind (crypto _ (.deriveCdi d (ascii "DPE")) fun r =>
      hI1.snoc (u := .deriveCdi d (ascii "DPE") r) ⟨rfl, .inl ⟨x, rfl⟩, path, ho⟩) ?_
    rintro cdi st l2 hI2 ⟨rfl, rfl⟩
    refine bind (crypto _ (Use.deriveKeyPair (ops := ops) cdi x.label (keyPurpose cfg.profile)) fun r =>
      hI2.snoc (u := Use.deriveKeyPair (ops := ops) cdi x.label (keyPurpose cfg.profile) r)
        ⟨rfl, .inl ⟨x, rfl, rfl⟩, d, by simp⟩) ?_
    rintro key st l3 hI3 ⟨rfl, rfl⟩
    refine (crypto _ (Use.sign (ops := ops) key x.message) fun r =>
      hI3.snoc (u := Use.sign (ops := ops) key x.message r)
        ⟨path, d, (ho.append _).append _, ⟨cdi, by simp, by simp⟩, rfl⟩).imp fun _ _ _ _ _ => trivial
  · rintro sig st' l' hI' _
    refine bind (asks_roll hn hI' _) fun ctx' st2 l2 hI2 _ => ?_
    exact Quiet.bind (.modify _) (fun _ => .bind (.writeAt _ _) fun _ => .pure _) _ _ _ hI2

theorem asks_certify (wf : Links st) (hfit : AlgorithmFits cfg ops) (hser : SerialGiven ops)
    (x : CertifyCmd) (hI : Proper st (.certify x) loc l) :
    Asks (Proper st (.certify x) loc) st l (certifyKey (ops.logged.env cfg) x loc) fun _ _ _ => True := by
  have hn : Cmd.needsHandle (.certify x : Cmd cfg) := trivial
  unfold certifyKey
  refine bind (get hI) ?_
  rintro _ st l _ ⟨rfl, rfl, rfl⟩
  refine bind (lift _ hI) ?_
  rintro i st l _ ⟨hr, rfl, rfl⟩
  refine bind (okOr _ _ hI) ?_
  rintro ctx st l _ ⟨hc, rfl, rfl⟩
  refine bind (failIf _ _ hI) ?_
  rintro _ st l _ ⟨h1, rfl, rfl⟩
  refine bind (failIf _ _ hI) ?_
  rintro _ st l _ ⟨h2, rfl, rfl⟩
  refine bind (failIf _ _ hI) ?_
  rintro _ st l _ ⟨h3, rfl, rfl⟩
  refine bind (failIf _ _ hI) ?_
  rintro _ st l _ ⟨_, rfl, rfl⟩
  refine bind (lift _ hI) ?_
  rintro kind st l _ ⟨h4, rfl, rfl⟩
  have hf := format_of h4
  have hr := findActive_iff.1 hr
  rw [leafArgs_eq]
  refine bind (asks_runCert wf hfit hser (.leaf rfl hf) (fun j hj => ?_) hI _) ?_
  · have : j = i := by
      rcases Nat.lt_trichotomy j i with h | h | h
      · exact absurd hj.1 (hr.2 j h)
      · exact h
      · exact absurd hr.1 (hj.2 i h)
    subst this
    refine ⟨hr, ?_⟩
    rw [at_of_getElem? hc]
    rcases hf with ⟨hf, _⟩ | ⟨hf, _⟩
    · rw [hf] at h1 h2
      refine .inl ⟨hf, ?_, ?_⟩
      · show st.support.getLsbD 26 = true
        simpa [x509Bit] using h1
      · simpa using h2
    · rw [hf] at h3
      refine .inr ⟨hf, ?_⟩
      show st.support.getLsbD 25 = true
      simpa [csrBit] using h3
  · rintro r st' l' hI' _
    refine bind (asks_roll hn hI' _) fun ctx' st2 l2 hI2 _ => ?_
    exact Quiet.bind (.modify _) (fun _ => .bind (.okOr _ _) fun _ => .bind (.writeAt _ _) fun _ =>
      .pure _) _ _ _ hI2

theorem entitled_derive {x : DeriveCmd cfg} {i : Nat} {ctx : Context cfg} (hr : Resolves st x.handle loc i)
    (hc : st.contexts[i]? = some ctx) (h1 : deriveUnsupported st.support x = false)
    (h2 : deriveBadArgs ctx x = false) (hx1 : x.createCert = true) (hx2 : x.exportCdi = true)
    (hrec : x.recursive = false) : Entitled st loc i (.derive x) := by
  unfold deriveUnsupported at h1
  unfold deriveBadArgs at h2
  rw [hx1, hx2] at h1 h2
  simp only [Bool.or_eq_false_iff] at h1 h2
  obtain ⟨⟨_, h3⟩, _⟩ := h1
  obtain ⟨⟨⟨⟨⟨⟨_, h4⟩, h5⟩, h6⟩, _⟩, _⟩, _⟩ := h2
  refine ⟨hr, ?_, ?_, ?_, hx2, hx1, not_bit hrec, not_bit h4⟩
  · rw [at_of_getElem? hc]
    cases h : ctx.ctype with
    | normal => rfl
    | simulation => rw [h] at h5; cases h5
  · rw [at_of_getElem? hc]
    rw [Bool.true_and, Bool.not_eq_false'] at h6
    exact h6
  · rw [Bool.true_or, Bool.and_true, Bool.not_eq_false'] at h3
    exact h3

theorem asks_derive (wf : Links st) (hfit : AlgorithmFits cfg ops) (hser : SerialGiven ops)
    (x : DeriveCmd cfg) (hI : Proper st (.derive x) loc l) :
    Asks (Proper st (.derive x) loc) st l (deriveCtx (ops.logged.env cfg) x loc) fun _ _ _ => True := by
  have hh : Cmd.hashes (.derive x : Cmd cfg) := trivial
  have hn : Cmd.needsHandle (.derive x : Cmd cfg) := trivial
  unfold deriveCtx
  refine bind (get hI) ?_
  rintro _ st l _ ⟨rfl, rfl, rfl⟩
  refine bind (failIf _ _ hI) ?_
  rintro _ st l _ ⟨h1, rfl, rfl⟩
  refine bind (lift _ hI) ?_
  rintro i st l _ ⟨hr, rfl, rfl⟩
  refine bind (okOr _ _ hI) ?_
  rintro ctx st l _ ⟨hc, rfl, rfl⟩
  refine bind (failIf _ _ hI) ?_
  rintro _ st l _ ⟨h2, rfl, rfl⟩
  have hr := findActive_iff.1 hr
  refine ite (fun _ => ?_) fun hrec => ?_
  · unfold deriveRecursive
    refine bind (failIf _ _ hI) ?_
    rintro _ st l _ ⟨_, rfl, rfl⟩
    refine bind (asks_addTci hh _ _ _ hI) fun p1 st1 l1 hI1 _ => ?_
    refine bind (asks_roll hn hI1 _) fun p2 st2 l2 hI2 _ => ?_
    exact Quiet.bind (.modify _) (fun _ => .bind (.writeAt _ _) fun _ => .pure _) _ _ _ hI2
  refine bind (lift _ hI) ?_
  rintro u st l _ ⟨_, rfl, rfl⟩
  refine bind (failIf _ _ hI) ?_
  rintro _ st l _ ⟨_, rfl, rfl⟩
  refine bind (P := fun _ st' l' => Grew st l st' l') ?_ ?_
  · unfold deriveParent
    have hg : Grew st l st l := ⟨rfl, [], by simp⟩
    refine ite (fun _ => ite (fun _ => bind (asks_new hn hI) ?_) fun _ => pure _ hI hg)
      fun _ => pure _ hI hg
    rintro h st' l' hI' hg
    exact pure _ hI' hg
  rintro p' st l1 hI1 ⟨rfl, es, rfl⟩
  refine ite (fun hx => ?_) fun _ => ?_
  · rw [Bool.and_eq_true] at hx
    have hen : Entitled st loc i (.derive x) :=
      entitled_derive hr hc h1 h2 hx.1 hx.2 (by simpa using hrec)
    unfold deriveExport
    refine bind (platform _ .ueid fun r => hI1.snoc (u := .ueid r) ⟨⟨x, rfl⟩, i, hen⟩) ?_
    rintro u st l2 hI2 ⟨rfl, rfl⟩
    refine bind (lift _ hI2) ?_
    rintro ueid st l2 _ ⟨hu, rfl, rfl⟩
    have hu : ueid = u.1.toList.take u.2.toNat := by
      unfold ueidGet at hu
      split at hu
      · injection hu with hu; exact hu.symm
      · cases hu
    subst hu
    refine bind (get hI2) ?_
    rintro _ st l2 _ ⟨rfl, rfl, rfl⟩
    rw [exportedArgs_eq]
    refine bind (asks_runCert wf hfit hser (.exported rfl (by simp)) (fun j hj => ?_) hI2 _) ?_
    · have : j = i := by
        rcases Nat.lt_trichotomy j i with h | h | h
        · exact absurd hj.1 (hr.2 j h)
        · exact h
        · exact absurd hr.1 (hj.2 i h)
      subst this
      exact hen
    · rintro r st' l' hI' _
      exact Quiet.bind .get (fun _ => .bind (.okOr _ _) fun _ => .bind (.lift _) fun _ =>
        .bind (.modify _) fun _ => .bind (.okOr _ _) fun _ => .bind (.writeAt _ _) fun _ =>
        .pure _) _ _ _ hI'
  · unfold deriveChild
    refine bind (get hI1) ?_
    rintro _ st l2 _ ⟨rfl, rfl, rfl⟩
    refine bind (okOr _ _ hI1) ?_
    rintro k st l2 _ ⟨_, rfl, rfl⟩
    refine bind (failIf _ _ hI1) ?_
    rintro _ st l2 _ ⟨_, rfl, rfl⟩
    refine bind (P := fun _ _ _ => True) ?_ fun h st2 l2 hI2 _ => ?_
    · unfold pickHandle
      exact ite (fun _ => pure _ hI1 trivial) fun _ => (asks_new hn hI1).imp fun _ _ _ _ _ => trivial
    refine bind (asks_addTci hh _ _ _ hI2) fun p1 st1 l1 hI1 _ => ?_
    exact Quiet.bind (.lift _) (fun _ => .bind (.modify _) fun _ => .bind (.writeAt _ _) fun _ =>
      .pure _) _ _ _ hI1

theorem asks_update (x : UpdateCmd cfg) (hI : Proper st (.update x) loc l) :
    Asks (Proper st (.update x) loc) st l (updateCtx ops.logged x loc) fun _ _ _ => True := by
  have hh : Cmd.hashes (.update x : Cmd cfg) := trivial
  have hn : Cmd.needsHandle (.update x : Cmd cfg) := trivial
  unfold updateCtx
  refine bind (failIf _ _ hI) ?_
  rintro _ st l _ ⟨_, rfl, rfl⟩
  refine bind (get hI) ?_
  rintro _ st l _ ⟨rfl, rfl, rfl⟩
  refine bind (lift _ hI) ?_
  rintro i st l _ ⟨hr, rfl, rfl⟩
  refine bind (okOr _ _ hI) ?_
  rintro p st l _ ⟨_, rfl, rfl⟩
  refine bind (okOr _ _ hI) ?_
  rintro k st l _ ⟨_, rfl, rfl⟩
  refine bind (okOr _ _ hI) ?_
  rintro ch st l _ ⟨_, rfl, rfl⟩
  refine bind (asks_addTci hh _ _ _ hI) fun c1 st1 l1 hI1 _ => ?_
  refine bind (asks_roll hn hI1 _) fun p1 st2 l2 hI2 _ => ?_
  refine bind (modify _ hI2) ?_
  rintro _ st2 l2 _ ⟨_, rfl⟩
  refine bind (asks_roll hn hI2 _) fun c2 st3 l3 hI3 _ => ?_
  exact Quiet.bind (.modify _) (fun _ => .bind (.writeAt _ _) fun _ => .pure _) _ _ _ hI3

theorem asks_exec (wf : Links st) (hfit : AlgorithmFits cfg ops) (hser : SerialGiven ops) (c : Cmd cfg)
    (hI : Proper st c loc l) :
    Asks (Proper st c loc) st l (exec (ops.logged.env cfg) c loc) fun _ _ _ => True := by
  cases c with
  | getProfile =>
    show Asks _ st l (getProfileCmd ops.logged) _
    unfold getProfileCmd getProfile
    refine bind (get hI) ?_
    rintro _ st l _ ⟨rfl, rfl, rfl⟩
    refine bind (P := fun _ _ _ => True) ?_ fun b st' l' hI' _ =>
      Quiet.bind (.writeAt _ _) (fun _ => .pure _) _ _ _ hI'
    refine bind (platform _ (fun _ => .vendorId) fun _ => hI.snoc (.inl rfl)) ?_
    rintro _ st _ hI1 ⟨rfl, rfl⟩
    refine bind (platform _ (fun _ => .vendorSku) fun _ => hI1.snoc (.inl rfl)) ?_
    rintro _ st _ hI2 ⟨rfl, rfl⟩
    exact pure _ hI2 trivial
  | init f =>
    show Asks _ st l (initCtx ops.logged f loc) _
    unfold initCtx
    refine bind (get hI) ?_
    rintro _ st l _ ⟨rfl, rfl, rfl⟩
    refine bind (failIf _ _ hI) ?_
    rintro _ st l _ ⟨_, rfl, rfl⟩
    refine bind (failIf _ _ hI) ?_
    rintro _ st l _ ⟨_, rfl, rfl⟩
    refine bind (okOr _ _ hI) ?_
    rintro k st l _ ⟨_, rfl, rfl⟩
    refine bind (P := fun _ _ _ => True) ?_ fun h st' l' hI' _ =>
      Quiet.bind (.modify _) (fun _ => .bind (.writeAt _ _) fun _ => .pure _) _ _ _ hI'
    unfold initHandle
    refine ite (fun _ => Quiet.bind (.modify _) (fun _ => .pure _) _ _ _ hI) fun h => ?_
    have hn : Cmd.needsHandle (.init f : Cmd cfg) := h
    exact (asks_new hn hI).imp fun _ _ _ _ _ => trivial
  | derive c => exact asks_derive wf hfit hser c hI
  | certify c => exact asks_certify wf hfit hser c hI
  | sign c => exact asks_sign wf c hI
  | rotate c =>
    show Asks _ st l (rotateCtx ops.logged c loc) _
    unfold rotateCtx
    refine bind (get hI) ?_
    rintro _ st l _ ⟨rfl, rfl, rfl⟩
    refine bind (failIf _ _ hI) ?_
    rintro _ st l _ ⟨_, rfl, rfl⟩
    refine bind (lift _ hI) ?_
    rintro i st l _ ⟨_, rfl, rfl⟩
    refine bind (failIf _ _ hI) ?_
    rintro _ st l _ ⟨_, rfl, rfl⟩
    refine bind (P := fun _ _ _ => True) ?_ fun h st' l' hI' _ =>
      Quiet.bind (.okOr _ _) (fun _ => .bind (.modify _) fun _ => .bind (.writeAt _ _) fun _ =>
        .pure _) _ _ _ hI'
    unfold pickHandle
    refine ite (fun _ => pure _ hI trivial) fun h => ?_
    have hn : Cmd.needsHandle (.rotate c : Cmd cfg) := h
    exact (asks_new hn hI).imp fun _ _ _ _ _ => trivial
  | destroy h =>
    show Asks _ st l (destroyCtx h loc) _
    unfold destroyCtx
    exact Quiet.bind .get (fun _ => .bind (.lift _) fun _ => .bind (.modify _) fun _ =>
      .bind (.writeAt _ _) fun _ => .pure _) _ _ _ hI
  | chain c =>
    show Asks _ st l (getCertChain ops.logged c) _
    unfold getCertChain
    refine bind (failIf _ _ hI) ?_
    rintro _ st l _ ⟨_, rfl, rfl⟩
    refine bind (platform _ (fun _ => .certChain c.offset c.size) fun _ => hI.snoc (.inl rfl)) ?_
    rintro ⟨len, chunk⟩ st' l' hI' _
    exact Quiet.bind (.writeAt _ _) (fun _ => .pure _) _ _ _ hI'
  | update c => exact asks_update c hI

end

end Dpe

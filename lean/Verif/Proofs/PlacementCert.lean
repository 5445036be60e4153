import Verif.Proofs.Placement
import Verif.Proofs.X509Emit
/-
Certificates do not depend on where contexts are stored.
-/
namespace Dpe
variable {cfg : Cfg} {σ α β : Type} {S : Border σ} {st st2 : State cfg} {ρ : Renumbering cfg.maxHandles}

/-- The measurement data differ only in where the chain is stored. -/
def SameChain (md md2 : MeasData cfg) : Prop :=
  (∃ i cs, md2 = { md with start := i, contexts := cs }) ∧
    ∃ cs cs2, ChainOf md cs ∧ ChainOf md2 cs2 ∧ cs2.map (·.tci) = cs.map (·.tci)

theorem tcbLoop_same (p : Profile) (r : Bool) {l l2 : List (Context cfg)}
    (h : l2.map (·.tci) = l.map (·.tci)) :
    (tcbLoop p r (l2.map .ok) : W σ Nat) = tcbLoop p r (l.map .ok) := by
  induction l generalizing l2 with
  | nil =>
    cases l2 with
    | nil => rfl
    | cons => simp at h
  | cons c l ih =>
    cases l2 with
    | nil => simp at h
    | cons c2 l2 =>
      simp only [List.map_cons, List.cons.injEq] at h
      simp only [List.map_cons]
      unfold tcbLoop
      rw [ih h.2]
      have hb : ∀ (x : Context cfg) (f : Context cfg → W σ Nat), (W.lift (.ok x) >>= f) = f x :=
        fun _ _ => rfl
      rw [hb, hb, h.1]

namespace SameChain
variable {md md2 : MeasData cfg}

theorem infos (h : SameChain md md2) (p : Profile) : tcbInfosSize p md2 = tcbInfosSize p md := by
  obtain ⟨⟨i, ctxs, rfl⟩, cs, cs2, h1, h2, h3⟩ := h
  cases cs with
  | nil => exact absurd rfl h1.ne
  | cons c cs =>
    cases cs2 with
    | nil => exact absurd rfl h2.ne
    | cons c2 cs2 =>
      rw [tcbInfosSize_ok h1, tcbInfosSize_ok h2]
      have hl := congrArg List.length h3
      simp only [List.length_map] at hl
      simp only [List.map_cons, List.cons.injEq] at h3
      rw [hl, h3.1]

theorem multi (h : SameChain md md2) (p : Profile) (crit : Bool) :
    multiTcbSize p crit md2 true = multiTcbSize p crit md true := by
  obtain ⟨⟨i, ctxs, rfl⟩, cs, cs2, h1, h2, h3⟩ := h
  rw [multiTcbSize_ok h1, multiTcbSize_ok h2, h3]
  rfl

theorem encMulti (h : SameChain md md2) (p : Profile) (crit : Bool) :
    (encMultiTcb p crit md2 : W σ Nat) = encMultiTcb p crit md := by
  unfold encMultiTcb
  rw [h.infos]
  obtain ⟨⟨i, ctxs, rfl⟩, cs, cs2, h1, h2, h3⟩ := h
  obtain ⟨it, e1, _, b1⟩ := h1.it
  obtain ⟨it2, e2, _, b2⟩ := h2.it
  rw [e1, e2]
  have hb : ∀ (x : ChainIter) (f : ChainIter → W σ Nat), (W.lift (.ok x) >>= f) = f x := fun _ _ => rfl
  simp only [hb]
  rw [b1, b2, tcbLoop_same _ _ h3]

end SameChain

/-- The measurement data differ only in where the chain is stored, and the code that reads the chain does not
notice. -/
structure SameWriting (md md2 : MeasData cfg) : Prop where
  rest : ∃ i cs, md2 = { md with start := i, contexts := cs }
  multi : ∀ p crit, multiTcbSize p crit md2 true = multiTcbSize p crit md true
  encMulti : ∀ {σ : Type} (p crit), (encMultiTcb p crit md2 : W σ Nat) = encMultiTcb p crit md

theorem SameChain.writing {md md2 : MeasData cfg} (h : SameChain md md2) : SameWriting md md2 :=
  ⟨h.1, h.multi, h.encMulti⟩

namespace SameWriting
variable {md md2 : MeasData cfg}

theorem exts (h : SameWriting md md2) (p : Profile) (crit a b c : Bool) :
    extsSize p crit md2 a b c = extsSize p crit md a b c := by
  unfold extsSize
  rw [h.multi]
  obtain ⟨i, ctxs, rfl⟩ := h.rest
  rfl

theorem attr (h : SameWriting md md2) (p : Profile) (crit a : Bool) :
    attributeSize p crit md2 a = attributeSize p crit md a := by
  unfold attributeSize
  rw [h.exts]

theorem attributes (h : SameWriting md md2) (p : Profile) (crit a : Bool) :
    attributesSize p crit md2 a = attributesSize p crit md a := by
  unfold attributesSize
  rw [h.attr]

theorem encWrapper (h : SameWriting md md2) (p : Profile) (crit a : Bool) :
    (encExtsWrapper p crit md2 a : W σ Nat) = encExtsWrapper p crit md a := by
  unfold encExtsWrapper
  rw [h.exts]

theorem encExtensions (h : SameWriting md md2) (p : Profile) (crit a : Bool) :
    (encExts p crit md2 a : W σ Nat) = encExts p crit md a := by
  unfold encExts
  rw [h.exts, h.encWrapper, h.encMulti p crit]
  obtain ⟨i, ctxs, rfl⟩ := h.rest
  rfl

theorem encAttrs (h : SameWriting md md2) (p : Profile) (crit : Bool) :
    (encAttributes p crit md2 : W σ Nat) = encAttributes p crit md := by
  unfold encAttributes
  rw [h.exts, h.attr, h.attributes, h.encExtensions]

theorem payload (h : SameWriting md md2) (p : Profile) (crit csr : Bool) (d : CertData cfg) :
    (encPayload p crit { d with meas := md2 } csr : W σ Nat) = encPayload p crit { d with meas := md } csr := by
  unfold encPayload encCri encTbs
  simp only [h.encAttrs, h.encExtensions]

theorem certOrCsr (h : SameWriting md md2) (cb : SignCb σ) (p : Profile) (crit csr : Bool) (d : CertData cfg) :
    encCertOrCsr cb p crit { d with meas := md2 } csr = encCertOrCsr cb p crit { d with meas := md } csr := by
  unfold encCertOrCsr encSigned
  simp only [h.payload]

theorem cms (h : SameWriting md md2) (cb : SignCb σ) (p : Profile) (crit : Bool) (d : CertData cfg)
    (sid : SignerId) :
    encCms cb p crit { d with meas := md2 } sid = encCms cb p crit { d with meas := md } sid := by
  unfold encCms encEncap
  simp only [h.certOrCsr]

end SameWriting

theorem twin_writer (ha : Concur S st st2) {m : W σ α} (hm : WCalls S.ops m) :
    Twin S (Same st st2) (runWriter m : M cfg σ α) (runWriter m) st st2 := by
  intro w out _
  unfold runWriter
  have hc := hm (Writer.new out, w)
  rcases h : m (Writer.new out, w) with ⟨e | a, ⟨w', x'⟩⟩ <;> rw [h] at hc
  · exact .inr ⟨e, x', w'.buf, st, st2, by simp only [h], by simp only [h], hc, ha⟩
  · exact .inl ⟨a, a, x', w'.buf, st, st2, by simp only [h], by simp only [h], hc, rfl, rfl, rfl⟩

theorem twin_issue (ha : Concur S st st2) {md md2 : MeasData cfg} (h : SameWriting md md2) {cb : SignCb σ}
    (hcb : CbCalls S.ops cb) (p : Profile) (crit : Bool) (d : CertData cfg) (sid : Option SignerId) :
    Twin S (Same st st2) (generate cb p crit { d with meas := md } sid)
      (generate cb p crit { d with meas := md2 } sid) st st2 := by
  unfold generate
  rcases sid with _ | sid
  · refine (Twin.failIf ha rfl _).same fun _ => Twin.same ?_ fun n => Twin.lift ha _
    have := h.certOrCsr cb p crit false { d with serial := d.subject.serial.bytes.take 20 }
    simp only at this ⊢
    rw [this]
    exact twin_writer ha (.encCertOrCsr hcb _ _ _ _)
  · refine Twin.same ?_ fun n => Twin.lift ha _
    rw [h.cms]
    exact twin_writer ha (.encCms hcb _ _ _ _)

theorem twin_finish (ha : Concur S st st2) {md md2 : MeasData cfg} (h : SameWriting md md2)
    {cb : SignCb σ} (hcb : CbCalls S.ops cb) (kind : CertKind) (crit : Bool) (d : CertData cfg)
    (sid : SignerId) :
    Twin S (Same st st2) (finishCert S.ops cb kind crit { d with meas := md } sid)
      (finishCert S.ops cb kind crit { d with meas := md2 } sid) st st2 := by
  unfold finishCert
  refine .ite (twin_issue ha h hcb _ _ _ _) (Twin.same ?_ fun i =>
    twin_issue ha h hcb _ _ { d with issuer := i } _)
  exact (Twin.platform ha _).same fun _ => (Twin.failIf ha rfl _).same fun _ => .pure ⟨rfl, rfl, rfl⟩

theorem twin_serial (ha : Concur S st st2) (k : PubKey) (n : Nat) :
    Twin S (Same st st2) (pubkeySerial S.ops k n) (pubkeySerial S.ops k n) st st2 :=
  (Twin.failIf ha rfl _).same fun _ => (Twin.failIf ha rfl _).same fun _ => (twin_hashAll ha _).same fun _ =>
    Twin.lift ha _

theorem twin_key (ha : Concur S st st2) (ex : Bool) (a : CertArgs) (d : Bytes) :
    Twin S (Same st st2) (certKey S.ops ex a d) (certKey S.ops ex a d) st st2 := by
  unfold certKey
  exact .ite ((Twin.crypto ha _).same fun _ => (Twin.crypto ha _).same fun _ => (Twin.crypto ha _).same fun _ =>
    .pure ⟨rfl, rfl, rfl⟩) ((Twin.crypto ha _).same fun _ => (Twin.crypto ha _).same fun _ =>
    (Twin.crypto ha _).same fun _ => .pure ⟨rfl, rfl, rfl⟩)

theorem twin_altName (ha : Concur S st st2) :
    Twin S (Same st st2) (getAltName S.ops : M cfg σ _) (getAltName S.ops) st st2 := by
  intro w out _
  unfold getAltName
  have hc : OpCalls S.ops w (S.ops.subjectAltName w).2 := .one (.subjectAltName w)
  rcases h : S.ops.subjectAltName w with ⟨e | a, w'⟩ <;> rw [h] at hc
  · cases e <;> simp only [h]
    all_goals first
      | exact .inl ⟨_, _, w', out, st, st2, rfl, rfl, hc, rfl, rfl, rfl⟩
      | exact .inr ⟨_, w', out, st, st2, rfl, rfl, hc, ha⟩
  · exact .inl ⟨some a, some a, w', out, st, st2, by simp only [h], by simp only [h], hc, rfl, rfl, rfl⟩

/-- The slot that a handle names, in both states. -/
theorem Shared.find (h : Shared S ρ st st2) (ht : TidyIn S.mine st) {hd : Handle} {loc : U32}
    (hL : S.mine loc) :
    (∃ i, Resolves st hd loc i ∧ st.findActive hd loc = .ok i ∧ st2.findActive hd loc = .ok (ρ.to i)) ∨
    ∃ e, st.findActive hd loc = .error e ∧ st2.findActive hd loc = .error e := by
  rcases h1 : st.findActive hd loc with e | i
  · right
    rcases h2 : st2.findActive hd loc with e2 | j
    · obtain ⟨_, a⟩ := findActive_error h1
      obtain ⟨_, b⟩ := findActive_error h2
      rw [h.inUse hL] at b
      refine ⟨e, rfl, ?_⟩
      rcases a with ⟨a1, a2⟩ | ⟨a1, a2⟩ <;> rcases b with ⟨b1, b2⟩ | ⟨b1, b2⟩
      · rw [a1, b1]
      · exact absurd a2 b2
      · exact absurd b2 a2
      · rw [a1, b1]
    · obtain ⟨i, rfl⟩ := ρ.surj j
      exact absurd ((h.names hL).1 (findActive_resolves h2).1) ((findActive_error h1).1 i)
  · have hr := findActive_resolves h1
    exact .inl ⟨i, hr, rfl, findActive_iff.2 ((h.resolves ht hL).2 hr)⟩

theorem Twin.find {Q : β → β → State cfg → State cfg → Prop} (h : Shared S ρ st st2) (ht : TidyIn S.mine st)
    {hd : Handle} {loc : U32} (hL : S.mine loc) {f g : Nat → M cfg σ β}
    (hf : ∀ i, Resolves st hd loc i → Twin S Q (f i) (g (ρ.to i)) st st2) :
    Twin S Q (M.lift (st.findActive hd loc) >>= f) (M.lift (st2.findActive hd loc) >>= g) st st2 := by
  rcases h.find ht (hd := hd) hL with ⟨i, hr, e1, e2⟩ | ⟨e, e1, e2⟩
  · rw [e1, e2]
    exact fun w out hw => hf i hr w out hw
  · rw [e1, e2]
    exact fun w out _ => .inr ⟨e, w, out, st, st2, rfl, rfl, .nil _, ρ, h⟩

theorem Twin.slot {Q : β → β → State cfg → State cfg → Prop} {i : Nat} (hi : Inside S.mine st i)
    (h : Shared S ρ st st2) {e : Err} {f g : Context cfg → M cfg σ β}
    (hf : Twin S Q (f (st.at i)) (g (st2.at (ρ.to i))) st st2) :
    Twin S Q (M.okOr st.contexts[i]? e >>= f) (M.okOr st2.contexts[ρ.to i]? e >>= g) st st2 := by
  rw [getElem?_of_lt hi.lt, getElem?_of_lt (h.live_iff.2 hi).lt]
  exact fun w out hw => hf w out hw

theorem sameChain (h : Shared S ρ st st2) (wf : WF st) (wf2 : WF st2) (ap : Apart S.mine st) {i : Nat}
    (hi : Inside S.mine st i) (ex : Bool)
    (a : CertArgs) (ski : Bytes) (aki : BArr 20) (alt : Option OtherName) :
    SameChain (measData st i ex a ski aki alt) (measData st2 (ρ.to i) ex a ski aki alt) := by
  obtain ⟨l, hl⟩ := wf.path i hi.1
  refine ⟨⟨ρ.to i, st2.contexts, ?_⟩, _, _, chainOf_path wf.links hl rfl rfl,
    chainOf_path wf2.links (h.path wf ap hi hl) rfl rfl, ?_⟩
  · unfold measData; rw [h.support]
  · rw [List.map_map, List.map_map, ← List.map_reverse, List.map_map]
    refine List.map_congr_left fun j hj => ?_
    exact (h.live j (Shared.path_live wf ap hi hl j (List.mem_reverse.1 hj))).tci

theorem twin_create (h : Shared S ρ st st2) (ht : TidyIn S.mine st) (wf : WF st) (wf2 : WF st2)
    (ap : Apart S.mine st) (kind : CertKind) (a : CertArgs) (hL : S.mine a.locality) :
    Twin S (Same st st2) (createCert S.ops kind a) (createCert S.ops kind a) st st2 := by
  have ha : Concur S st st2 := ⟨ρ, h⟩
  unfold createCert
  refine Twin.get (Twin.find h ht hL fun i hr => ?_)
  have hl : Inside S.mine st i := .of_active hr.1.1 (hr.1.2.2 ▸ hL)
  refine (twin_measure h wf ap hl).same fun d => (twin_key ha _ _ _).same fun kh => ?_
  obtain ⟨k, hx⟩ := kh
  refine Twin.same ((twin_serial ha _ _).same fun s => .pure ⟨rfl, rfl, rfl⟩) fun subj => ?_
  refine Twin.same ((twin_hashAll ha _).same fun s => (Twin.failIf ha rfl _).same fun _ =>
    .pure ⟨rfl, rfl, rfl⟩) fun ski => ?_
  refine (Twin.platform ha _).same fun aki => (twin_altName ha).same fun alt => Twin.get ?_
  refine Twin.find h ht hL fun i' hr' => ?_
  have hl' : Inside S.mine st i' := .of_active hr'.1.1 (hr'.1.2.2 ▸ hL)
  obtain ⟨l, hp⟩ := wf.path i' hl'.1
  rw [tciNodesNew_path hp, tciNodesNew_path (h.path wf ap hl' hp)]
  refine (Twin.lift ha _).same fun _ => (Twin.platform ha _).same fun v => (Twin.platform ha _).same fun sid => ?_
  refine (twin_finish ha (sameChain h wf wf2 ap hl' _ _ _ _ _).writing (signCb_calls _ _ _ _) _ _
    { serial := [], issuer := [], subject := subj, pubKey := k, meas := measData st i' kind.exported a ski aki alt,
      validity := v } _).same fun n => ?_
  exact .ite ((Twin.okOr ha _ _).same fun _ => .pure ⟨rfl, rfl, rfl⟩) (.pure ⟨rfl, rfl, rfl⟩)

theorem twin_cert (h : Shared S ρ st st2) (ht : TidyIn S.mine st) (wf : WF st) (wf2 : WF st2)
    (ap : Apart S.mine st) (kind : CertKind) (a : CertArgs) (hL : S.mine a.locality) (base : Nat) :
    Twin S (Same st st2) (runCert (S.ops.env cfg) kind a base) (runCert (S.ops.env cfg) kind a base) st st2 := by
  intro w out hw
  unfold runCert Ops.env
  simp only
  rcases twin_create h ht wf wf2 ap kind a hL w (out.drop base) hw with
    ⟨x, y, w', out', t, t2, h1, h2, hc, rfl, rfl, rfl⟩ | ⟨e, w', out', t, t2, h1, h2, hc, h3⟩
  · exact .inl ⟨x, x, w', out.take base ++ out', t, t2, by simp only [h1], by simp only [h2], hc, rfl, rfl, rfl⟩
  · exact .inr ⟨e, w', out.take base ++ out', st, st2, by simp only [h1], by simp only [h2], hc, ρ, h⟩

end Dpe

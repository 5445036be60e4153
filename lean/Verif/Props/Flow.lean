import Verif.Props.Suite
import Verif.Examples.Flow1
/-
C85: what a client measures into a context shows in the certificate that the client asks for next.
-/
namespace Dpe
section
variable {cfg : Cfg} {st st' : State cfg} {h h' : Handle} {loc : U32} {i : Nat}

/-- The handle leads to slot `i` and nobody else has it. -/
structure Firm (st : State cfg) (h : Handle) (loc : U32) (i : Nat) : Prop where
  serves : InService st
  resolves : Resolves st h loc i
  sole : Sole st i
  init : h = Handle.default → st.hasInitialized = true

theorem Firm.kept (hf : Firm st h loc i) (hc : LeavesAlone i st st') :
    Firm st' h loc i ∧ (st'.at i).tci = (st.at i).tci ∧ st'.support = st.support := by
  obtain ⟨ch, e⟩ := C74_kept hf.serves hf.resolves.1.1 hc
  refine ⟨⟨CallsWith.inService hf.serves hc, (C74_resolves hf.serves hf.resolves hf.sole hf.init hc).1,
    C74_sole hf.serves hf.resolves.1.1 hf.sole (by rw [hf.resolves.1.2.1]; exact hf.init) hc,
    fun hd => CallsWith.initialised hf.serves hc (hf.init hd)⟩, by rw [e], ?_⟩
  exact (C21_config_history hf.serves hc.calls).1.2.2.1

theorem resolves_of_sole (hn : Names st h loc i) (hso : Sole st i) : Resolves st h loc i := by
  refine ⟨hn, fun j hlt hj => absurd (hso j hj.1 ⟨?_, fun _ => ?_⟩) (Nat.ne_of_lt hlt)⟩
  · rw [hj.2.1, hn.2.1]
  · rw [hj.2.2, hn.2.2]

/-- A context that got the successor of its handle. -/
theorem firm_next {c : Context cfg} (hst : InService st') (hr : Resolves st h loc i)
    (hdef : h = Handle.default → st.hasInitialized = true ∧ Sole st i) (hn : NextHandle st h h')
    (hc : c.handle = h' ∧ c.state = (st.at i).state ∧ c.locality = (st.at i).locality)
    (hset : SetSlot st i c st') : Firm st' h' loc i := by
  obtain ⟨e1, e2, e3⟩ := hset
  obtain ⟨c1, c2, c3⟩ := hc
  have hname : Names st' h' loc i := by
    unfold Names
    rw [e1, c1, c2, c3]
    exact ⟨hr.1.1, rfl, hr.1.2.2⟩
  have hso : Sole st' i := by
    intro j hj hs
    refine Classical.byContradiction fun hne => ?_
    rw [e1, e2 j hne] at hs
    rw [e2 j hne] at hj
    rcases hn with ⟨rfl, rfl⟩ | ⟨_, hu⟩
    · refine hne ((hdef rfl).2 j hj ?_)
      unfold SameName at hs ⊢
      rw [c1, c3] at hs
      rw [hr.1.2.1]
      exact hs
    · exact hu.2 j (active_at hj) (hs.1.trans c1)
  refine ⟨hst, resolves_of_sole hname hso, hso, ?_⟩
  rintro rfl
  rw [e3.2]
  rcases hn with ⟨rfl, _⟩ | ⟨_, hu⟩
  · exact (hdef rfl).1
  · exact absurd rfl hu.1

end

section
variable {cfg : Cfg} {L : Lib} {a : Artifact} {c : Client} {loc loc' : U32} {addr : Nat}
  {s s1 s2 s3 s4 s5 : Sys cfg (Soft (L.crypto cfg.profile) × Unit)}

theorem digests_std (hL : L.Total) :
    Digests (device L a cfg.profile) fun x y => y = stdHash L cfg.profile x := by
  intro chunks w w' d h
  have := (hashed_iff (hL.sound cfg.profile)).1 h
  rw [this.1, std_hash]

/-- What a certificate that the client gets says about the context. -/
theorem cert_says {h h' : Handle} {l kx ky cert : Bytes} {f : U32} {i : Nat} {x : Option (Sys cfg _)} {y : Cert}
    (hL : L.Total) (ha : a.Fit) (hb : Built cfg a) (hs : cfg.Standard) (hc : Connected L a cfg c)
    (hst : InService s.st) (hal : addr % 4 = 0) (hr : Resolves s.st h loc i)
    (h1 : c.call (simSend ((device L a cfg.profile).env cfg) loc addr) (.certifyKey h l 0 f) (some s) =
      (.ok (.key h' kx ky cert), x)) (hy : readCert cert = some y) :
    Suite.getTcbInfo y.exts (marksCritical s.st) =
      some (reported cfg.profile (s.st.supports Feature.recursive) (s.st.at i).tci) := by
  obtain ⟨_, _, hd, _⟩ := C58_meets (cfg := cfg) (L := L) hL ha 0
  obtain ⟨j, m, out, r, h'', _, _, _, pk, rfl, rfl, e3, e4, e5, e6, e7, _, _, he⟩ :=
    certify_call hL ha hb hs hc hst hal h1
  cases e5
  rw [← e6] at hy
  obtain ⟨i', path, m1, m2, _, m3, m4⟩ := C43_certificate_partial (s := ⟨s.st, s.w, out⟩) hst hd e3 he
  obtain rfl := m1.unique hr
  have hcr := (C77_certificate_partial (s := ⟨s.st, s.w, out⟩) hst hd (device_hashes hL) e3 he hy).critical
  have hg : Suite.getMultiTcbInfo y.exts (marksCritical s.st) = _ :=
    getter_some (m4 y hy) (fun h => by
      unfold tcbInfosOf; rw [show extOf (oidBody [2, 23, 133, 5, 4, 5]) y.exts = none from h])
      (critical_of hcr).2.2.2.2.2.2
  obtain ⟨tl, htl⟩ : ∃ tl, path = i' :: tl := by cases m2 <;> exact ⟨_, rfl⟩
  unfold Suite.getTcbInfo
  rw [hg, htl]
  simp [chainOf]

/-- What having a key certified does to the context. -/
theorem cert_firm {h h' : Handle} {l kx ky cert : Bytes} {format f : U32} {i : Nat}
    (hL : L.Total) (ha : a.Fit) (hb : Built cfg a) (hs : cfg.Standard) (hc : Connected L a cfg c)
    (hst : InService s.st) (hal : addr % 4 = 0) (hr : Resolves s.st h loc i)
    (hdef : h = Handle.default → s.st.hasInitialized = true ∧ Sole s.st i)
    (h1 : c.call (simSend ((device L a cfg.profile).env cfg) loc addr) (.certifyKey h l format f) (some s) =
      (.ok (.key h' kx ky cert), some s1)) :
    Firm s1.st h' loc i ∧ (s1.st.at i).tci = (s.st.at i).tci ∧ s1.st.support = s.st.support := by
  have hst1 := call_inService hL ha hb hs hc hst hal h1
  obtain ⟨j, m, out, r, h'', _, _, _, pk, rfl, rfl, e3, e4, e5, e6, e7, _, _, he⟩ :=
    certify_call hL ha hb hs hc hst hal h1
  cases e5
  cases e4
  obtain ⟨hs', ⟨hh, rfl, i', u1, u2, u3⟩, hrep⟩ :=
    C52_success_effect (s := ⟨s.st, s.w, out⟩) hst (digests_true _) he
  obtain rfl := u1.unique hr
  have hh' : h' = hh := by
    have := hrep.at (k := 0) (x := hh) rfl
    exact Vector.toList_inj.1 (e7.trans this)
  subst hh'
  exact ⟨firm_next (c := { s.st.at i' with handle := h' }) hst1 hr hdef u2 ⟨rfl, rfl, rfl⟩ u3, by rw [u3.1], u3.2.2.1.2.2.1⟩

/-- The handles that the client gets from DeriveContext are those of the effect. -/
theorem derive_call {h h1 hp : Handle} {cdi : BArr 32} {n : U32} {d crt : Bytes} {f ty target : U32}
    (hL : L.Total) (ha : a.Fit) (hb : Built cfg a) (hs : cfg.Standard) (hc : Connected L a cfg c)
    (hst : InService s.st) (hal : addr % 4 = 0)
    (hcall : c.call (simSend ((device L a cfg.profile).env cfg) loc addr) (.derive h d f ty target) (some s) =
      (.ok (.derived h1 hp cdi n crt), some s1)) :
    ∃ (v : BArr cfg.tciSize) (i : Nat), v.toList = d ∧ Resolves s.st h loc i ∧
      DeriveEffect (fun x y => y = stdHash L cfg.profile x) s.st
        { handle := h, data := v, flags := f, tciType := ty, targetLocality := target, svn := 0 } loc i h1 hp s1.st := by
  obtain ⟨cmd, reply, st', w', hm, hin, hans, hx, he⟩ := call_ok hL ha hb hs hc hst hal hcall
  cases hx
  cases hm with
  | derive _ v =>
    obtain ⟨hs', ⟨i, hh, hhp, rfl, u1, u2⟩, hrep⟩ :=
      C52_success_effect (s := ⟨s.st, s.w, List.replicate reply.length 0⟩) hst (digests_std hL) he
    have r0 := hrep.at (k := 0) (x := hh) rfl
    have r1 := hrep.at (k := 1) (x := hhp) rfl
    have hw : RepliesWith cfg.profile [h1, hp] reply := by
      unfold Answer at hans
      simp only at hans
      split at hans
      · obtain ⟨p', cdi', cert', g1, _, g2⟩ := hans
        cases g2
        refine ⟨cdi.toList ++ word (BitVec.ofNat 32 crt.length) ++ crt, ?_⟩
        rw [g1]
        unfold exportReply successBytes
        rw [show List.replicate 16 (0xFF : UInt8) = Handle.invalid.toList from by decide]
        simp only [List.map_cons, List.map_nil, List.flatten_cons, List.flatten_nil, List.append_nil,
          List.append_assoc]
        rfl
      · obtain ⟨h', p', g1, g2⟩ := hans
        cases g2
        refine ⟨[], ?_⟩
        rw [g1]
        exact (List.append_nil _).symm
    obtain rfl : hh = h1 := Vector.toList_inj.1 (r0.symm.trans (hw.at (k := 0) (x := h1) rfl))
    obtain rfl : hhp = hp := Vector.toList_inj.1 (r1.symm.trans (hw.at (k := 1) (x := hp) rfl))
    exact ⟨v, i, rfl, u1, u2⟩

theorem update_call {h h1 hp : Handle} {d : Bytes} {ty : U32}
    (hL : L.Total) (ha : a.Fit) (hb : Built cfg a) (hs : cfg.Standard) (hc : Connected L a cfg c)
    (hst : InService s.st) (hal : addr % 4 = 0)
    (hcall : c.call (simSend ((device L a cfg.profile).env cfg) loc addr) (.update h d ty) (some s) =
      (.ok (.updated h1 hp), some s1)) :
    ∃ v : BArr cfg.tciSize, v.toList = d ∧
      UpdateEffect (fun x y => y = stdHash L cfg.profile x) s.st
        { parentHandle := h, data := v, reserved := 0, tciType := ty, reservedSvn := 0 } loc h1 hp s1.st := by
  obtain ⟨cmd, reply, st', w', hm, hin, hans, hx, he⟩ := call_ok hL ha hb hs hc hst hal hcall
  cases hx
  cases hm with
  | update _ v =>
    obtain ⟨hs', ⟨hh, hhp, rfl, u1⟩, hrep⟩ :=
      C52_success_effect (s := ⟨s.st, s.w, List.replicate reply.length 0⟩) hst (digests_std hL) he
    obtain ⟨h', p', g1, g2⟩ := hans
    cases g2
    have hw : RepliesWith cfg.profile [h1, hp] reply := by
      refine ⟨[], ?_⟩
      rw [g1]
      exact (List.append_nil _).symm
    obtain rfl : hh = h1 := Vector.toList_inj.1 ((hrep.at (k := 0) (x := hh) rfl).symm.trans (hw.at (k := 0) (x := h1) rfl))
    obtain rfl : hhp = hp := Vector.toList_inj.1 ((hrep.at (k := 1) (x := hhp) rfl).symm.trans (hw.at (k := 1) (x := hp) rfl))
    exact ⟨v, rfl, u1⟩

theorem expected_std (hb : Built cfg a) {last : BArr cfg.tciSize} {d : Bytes} :
    Suite.computeExpectedCumulative (fun b => (L.sha256 b).toList) (fun b => (L.sha384 b).toList) last.toList d =
      some (stdHash L cfg.profile (last.toList ++ d)) := by
  have hl : last.toList.length = digestLength cfg.profile := by rw [Vector.length_toList, hb.tci]
  unfold Suite.computeExpectedCumulative
  rw [hl]
  cases cfg.profile <;> simp [digestLength, stdHash]

theorem measured {t : Tci cfg} {d e : Bytes} {p : Profile} (h1 : t.current.toList = d) (h2 : t.cumulative.toList = e) :
    Suite.verifyMeasurements (reported p true t) d e = true := by
  simp [Suite.verifyMeasurements, reported, h1, h2]

/-- C85: a client has the key of a context certified, extends the context with DeriveContext (RECURSIVE) and
has the key certified again, whatever others do to other contexts in between: the check of the conformance
tests passes, that is the second certificate has the new measurement, and as cumulative one the hash of that
in the first certificate and the new measurement. -/
theorem C85_recursive {h h1 h2 h3 hp : Handle} {l l' kx ky kx' ky' cert cert' d crt : Bytes} {cdi : BArr 32}
    {n f f' flags ty target : U32} {i : Nat} {y y' : Cert}
    (hL : L.Total) (ha : a.Fit) (hb : Built cfg a) (hs : cfg.Standard) (hc : Connected L a cfg c)
    (hst : InService s.st) (hal : addr % 4 = 0) (hrec : s.st.supports Feature.recursive)
    (hr : Resolves s.st h loc i) (hdef : h = Handle.default → s.st.hasInitialized = true ∧ Sole s.st i)
    (hc1 : c.call (simSend ((device L a cfg.profile).env cfg) loc addr) (.certifyKey h l 0 f) (some s) =
      (.ok (.key h1 kx ky cert), some s1))
    (ho1 : LeavesAlone i s1.st s2.st)
    (hfl : Bit flags DFlag.recursive)
    (hc2 : c.call (simSend ((device L a cfg.profile).env cfg) loc addr) (.derive h1 d flags ty target) (some s2) =
      (.ok (.derived h2 hp cdi n crt), some s3))
    (ho2 : LeavesAlone i s3.st s4.st)
    (hc3 : c.call (simSend ((device L a cfg.profile).env cfg) loc addr) (.certifyKey h2 l' 0 f') (some s4) =
      (.ok (.key h3 kx' ky' cert'), some s5))
    (hy : readCert cert = some y) (hy' : readCert cert' = some y') :
    ∃ t t' last e, Suite.getTcbInfo y.exts (marksCritical s.st) = some t ∧
      Suite.getTcbInfo y'.exts (marksCritical s4.st) = some t' ∧ Suite.cumulativeDigest t = some last ∧
      Suite.computeExpectedCumulative (fun b => (L.sha256 b).toList) (fun b => (L.sha384 b).toList) last d = some e ∧
      Suite.verifyMeasurements t' d e = true := by
  obtain ⟨f1, t1, p1⟩ := cert_firm hL ha hb hs hc hst hal hr hdef hc1
  obtain ⟨f2, t2, p2⟩ := f1.kept ho1
  obtain ⟨v, i', hv, r2, he⟩ := derive_call hL ha hb hs hc f2.serves hal hc2
  obtain rfl := r2.unique f2.resolves
  have hst3 := call_inService hL ha hb hs hc f2.serves hal hc2
  have hsay := cert_says hL ha hb hs hc hst hal hr hc1 hy
  cases he with
  | child hn => exact absurd hfl hn
  | exported hn => exact absurd hfl hn
  | exportedLast hn => exact absurd hfl hn
  | @recursive _ v' _ _ hD hn hset =>
    have f3 : Firm s3.st h2 loc i' := firm_next (c := { s2.st.at i' with
        tci := { (s2.st.at i').tci with cumulative := v', current := v }, handle := h2 }) hst3 f2.resolves (fun hd => ⟨f2.init hd, f2.sole⟩) hn
      ⟨rfl, rfl, rfl⟩ hset
    obtain ⟨f4, t4, p4⟩ := f3.kept ho2
    have hsay' := cert_says hL ha hb hs hc f4.serves hal f4.resolves hc3 hy'
    have hrec' : s4.st.supports Feature.recursive := by
      unfold State.supports at hrec ⊢
      rw [p4, hset.2.2.1.2.2.1, p2, p1]
      exact hrec
    simp only [hrec, hrec', decide_true] at hsay hsay'
    refine ⟨_, _, (s.st.at i').tci.cumulative.toList, _, hsay, hsay', by simp [Suite.cumulativeDigest, reported],
      expected_std hb, measured ?_ ?_⟩
    · rw [t4, hset.1]; exact hv
    · rw [t4, hset.1]
      simp only [t2, t1] at hD
      rw [hD, ← hv]

/-- C85: the same for a measurement that is added through the parent's handle with UpdateContextMeasurement. -/
theorem C85_updated {h h1 h2 h3 hp hp' : Handle} {l l' kx ky kx' ky' cert cert' d : Bytes}
    {f f' ty : U32} {i idx : Nat} {y y' : Cert}
    (hL : L.Total) (ha : a.Fit) (hb : Built cfg a) (hs : cfg.Standard) (hc : Connected L a cfg c)
    (hst : InService s.st) (hal : addr % 4 = 0) (hrec : s.st.supports Feature.recursive)
    (hr : Resolves s.st h loc i) (hdef : h = Handle.default → s.st.hasInitialized = true ∧ Sole s.st i)
    (hc1 : c.call (simSend ((device L a cfg.profile).env cfg) loc addr) (.certifyKey h l 0 f) (some s) =
      (.ok (.key h1 kx ky cert), some s1))
    (ho1 : LeavesAlone i s1.st s2.st)
    (hpar : Resolves s2.st hp loc' idx) (hact : ActiveChild s2.st idx ty i)
    (hc2 : c.call (simSend ((device L a cfg.profile).env cfg) loc' addr) (.update hp d ty) (some s2) =
      (.ok (.updated h2 hp'), some s3))
    (ho2 : LeavesAlone i s3.st s4.st)
    (hc3 : c.call (simSend ((device L a cfg.profile).env cfg) loc addr) (.certifyKey h2 l' 0 f') (some s4) =
      (.ok (.key h3 kx' ky' cert'), some s5))
    (hy : readCert cert = some y) (hy' : readCert cert' = some y') :
    ∃ t t' last e, Suite.getTcbInfo y.exts (marksCritical s.st) = some t ∧
      Suite.getTcbInfo y'.exts (marksCritical s4.st) = some t' ∧ Suite.cumulativeDigest t = some last ∧
      Suite.computeExpectedCumulative (fun b => (L.sha256 b).toList) (fun b => (L.sha384 b).toList) last d = some e ∧
      Suite.verifyMeasurements t' d e = true := by
  obtain ⟨f1, t1, p1⟩ := cert_firm hL ha hb hs hc hst hal hr hdef hc1
  obtain ⟨f2, t2, p2⟩ := f1.kept ho1
  obtain ⟨v, hv, idx', k, v', u1, u2, u3, u4, u5, u6, u7, u8, u9, u10, u11⟩ :=
    update_call hL ha hb hs hc f2.serves hal hc2
  have hst3 := call_inService hL ha hb hs hc f2.serves hal hc2
  obtain rfl := u1.unique hpar
  obtain rfl : k = i := Nat.le_antisymm (u3.2.2.2 i hact.1 hact.2.1 hact.2.2.1)
    (hact.2.2.2 k u3.1 u3.2.1 u3.2.2.1)
  have hsay := cert_says hL ha hb hs hc hst hal hr hc1 hy
  have hn2 := f2.resolves.1
  have hname : Names s3.st h2 loc k := by
    unfold Names
    rw [u9]
    exact ⟨hn2.1, rfl, hn2.2.2⟩
  have hso : Sole s3.st k := by
    intro j hj hsn
    refine Classical.byContradiction fun hne => ?_
    unfold SameName at hsn
    rw [u9] at hsn
    by_cases hji : j = idx'
    · subst hji
      rw [u8] at hsn
      rcases u7 with ⟨_, rfl⟩ | ⟨_, _, g, _⟩
      · exact u6.1 hsn.1
      · exact g hsn.1.symm
    · rw [u10 j hji hne] at hsn hj
      rcases u7 with ⟨g, rfl⟩ | ⟨_, _, _, g⟩
      · refine hne (f2.sole j hj ?_)
        unfold SameName
        rw [g]
        exact hsn
      · exact g j (active_at hj) hji hsn.1
  have f3 : Firm s3.st h2 loc k := by
    refine ⟨hst3, resolves_of_sole hname hso, hso, ?_⟩
    rintro rfl
    rw [u11.2]
    rcases u7 with ⟨g, _⟩ | ⟨_, g, _⟩
    · exact f2.init (hn2.2.1.symm.trans g)
    · exact absurd rfl g
  obtain ⟨f4, t4, p4⟩ := f3.kept ho2
  have hsay' := cert_says hL ha hb hs hc f4.serves hal f4.resolves hc3 hy'
  have hrec' : s4.st.supports Feature.recursive := by
    unfold State.supports at hrec ⊢
    rw [p4, u11.1.2.2.1, p2, p1]
    exact hrec
  simp only [hrec, hrec', decide_true] at hsay hsay'
  refine ⟨_, _, (s.st.at k).tci.cumulative.toList, _, hsay, hsay', by simp [Suite.cumulativeDigest, reported],
    expected_std hb, measured ?_ ?_⟩
  · rw [t4, u9]; exact hv
  · rw [t4, u9]
    simp only [t2, t1] at u5
    rw [u5, ← hv]

/-- C85: the certificate of a context that the client has created has the measurement it was created with, and as
cumulative one the hash of zeros and that measurement.  (Unless the random source has given the parent the
same handle, `C12_twins`, or another context in that locality has the default handle too.) -/
theorem C85_child {h h1 h2 hp : Handle} {l kx ky cert d crt : Bytes} {cdi : BArr 32}
    {n f flags ty target : U32} {y : Cert}
    (hL : L.Total) (ha : a.Fit) (hb : Built cfg a) (hs : cfg.Standard) (hc : Connected L a cfg c)
    (hst : InService s.st) (hal : addr % 4 = 0) (hrec : s.st.supports Feature.recursive)
    (hfl : ¬ Bit flags DFlag.recursive ∧ ¬ Bit flags DFlag.exportCdi)
    (hloc : loc' = if Bit flags DFlag.changeLocality then target else loc)
    (hc1 : c.call (simSend ((device L a cfg.profile).env cfg) loc addr) (.derive h d flags ty target) (some s) =
      (.ok (.derived h1 hp cdi n crt), some s1))
    (hne1 : Bit flags DFlag.retainParent → h1 = hp → h1 = Handle.default)
    (hdef : Bit flags DFlag.makeDefault → s1.st.hasInitialized = true ∧
      ∀ j k, Names s1.st Handle.default loc' j → Names s1.st Handle.default loc' k → j = k)
    (ho : ∀ i, Names s1.st h1 loc' i → LeavesAlone i s1.st s2.st)
    (hc2 : c.call (simSend ((device L a cfg.profile).env cfg) loc' addr) (.certifyKey h1 l 0 f) (some s2) =
      (.ok (.key h2 kx ky cert), some s3))
    (hy : readCert cert = some y) :
    ∃ t e, Suite.getTcbInfo y.exts (marksCritical s2.st) = some t ∧
      Suite.computeExpectedCumulative (fun b => (L.sha256 b).toList) (fun b => (L.sha384 b).toList)
        (List.replicate (digestLength cfg.profile) 0) d = some e ∧
      Suite.verifyMeasurements t d e = true := by
  obtain ⟨v, i, hv, r1, he⟩ := derive_call hL ha hb hs hc hst hal hc1
  have hst1 := call_inService hL ha hb hs hc hst hal hc1
  cases he with
  | recursive hn => exact absurd hn hfl.1
  | exported _ hn => exact absurd hn hfl.2
  | exportedLast _ hn => exact absurd hn hfl.2
  | @child _ _ v' st k kids _ _ _ hff hD hh hpn hkids hk hidx hoth hmeta =>
    have hname : Names s1.st h1 loc' k := by
      unfold Names
      rw [hk, hloc]
      exact ⟨rfl, rfl, rfl⟩
    have hso : Sole s1.st k := by
      intro j hj hsn
      unfold SameName at hsn
      rw [hk] at hsn
      simp only [childContext] at hsn
      rcases hh with ⟨hm, rfl⟩ | ⟨hm, hu⟩
      · refine (hdef hm).2 j k ⟨hj, hsn.1, ?_⟩ hname
        rw [hsn.2 rfl, hloc]
      · refine Classical.byContradiction fun hne => ?_
        by_cases hji : j = i
        · subst hji
          rw [hidx] at hsn hj
          rcases hpn with ⟨hret, _, _⟩ | ⟨_, rfl, _⟩
          · exact hu.1 (hne1 hret hsn.1.symm)
          · cases hj
        · rw [hoth j hne hji] at hsn hj
          exact hu.2 j (active_at hj) hsn.1
    have f1 : Firm s1.st h1 loc' k := by
      refine ⟨hst1, resolves_of_sole hname hso, hso, ?_⟩
      rintro rfl
      rcases hh with ⟨hm, _⟩ | ⟨_, hu⟩
      · exact (hdef hm).1
      · exact absurd rfl hu.1
    obtain ⟨f2, t2, p2⟩ := f1.kept (ho k hname)
    have hsay := cert_says hL ha hb hs hc f2.serves hal f2.resolves hc2 hy
    have hrec' : s2.st.supports Feature.recursive := by
      unfold State.supports at hrec ⊢
      rw [p2, hmeta.1.2.2.1]
      exact hrec
    simp only [hrec', decide_true] at hsay
    have he := expected_std (L := L) (d := d) hb (last := Vector.replicate _ 0)
    rw [Vector.toList_replicate, hb.tci] at he
    refine ⟨_, _, hsay, he, measured ?_ ?_⟩
    · rw [t2, hk]; exact hv
    · rw [t2, hk]
      simp only [childContext]
      rw [hD, ← hv, congrArg (fun m => List.replicate m (0 : UInt8)) hb.tci]

end

namespace Ref

theorem flow_facts {k : Handle → Handle → GoCall} {new : GoValue → Option Handle} (hf : flow k new = true) :
    ∃ (c : Client) (s s1 s2 s3 s4 : Sys std (Soft (lib.crypto std.profile) × Unit)) (h0 h hp h1 h2 h3 : Handle)
    (cdi : BArr 32) (n : U32) (crt0 kx ky crt kx' ky' crt' : Bytes) (v : GoValue) (y y' : Cert),
    Connected lib anchor std c ∧ InService s.st ∧ s.st.supports Feature.recursive ∧
    c.call anchorWires (.derive h0 (List.replicate 32 7) 0x22200000 9 0) (some s) =
      (.ok (.derived h hp cdi n crt0), some s1) ∧ h ≠ hp ∧ h ≠ Handle.default ∧
    Resolves s1.st h 3 1 ∧ InService s1.st ∧ s1.st.supports Feature.recursive ∧
    c.call anchorWires (.certifyKey h (List.replicate 32 1) 0 0) (some s1) = (.ok (.key h1 kx ky crt), some s2) ∧
    Resolves s2.st hp 3 0 ∧ ActiveChild s2.st 0 9 1 ∧
    c.call anchorWires (k h1 hp) (some s2) = (.ok v, some s3) ∧ new v = some h2 ∧
    c.call anchorWires (.certifyKey h2 (List.replicate 32 1) 0 0) (some s3) = (.ok (.key h3 kx' ky' crt'), some s4) ∧
    readCert crt = some y ∧ readCert crt' = some y' := by
  have hbu : Built std anchor := ⟨rfl, by decide +kernel⟩
  unfold flow at hf
  obtain ⟨s0, hs0, hr0, _⟩ := C59_start (cfg := std) (L := lib) (a := anchor) features.args
  rw [hs0] at hf
  split at hf
  case h_2 => cases hf
  rename_i c s1 hc
  have hcon : Connected lib anchor std c := ⟨_, _, _, _, _, .reached hr0, (by decide), hc⟩
  have hs1 : InService s1.st := by
    obtain ⟨c', h1, _⟩ := (C62_connects_partial (loc := 3) (addr := 8) lib_total anchor_fit hbu std_standard
      (.reached hr0) (by decide) 3).1 rfl
    have := h1.symm.trans hc
    injection this with _ e
    injection e with e
    rw [← e]; exact .reached hr0
  split at hf
  case h_2 => cases hf
  rename_i v2 s2 hc2
  have hs2 := call_inService lib_total anchor_fit hbu std_standard hcon hs1 (by decide) hc2
  split at hf
  case h_2 => cases hf
  rename_i h0 s3 hc3
  have hs3 := call_inService lib_total anchor_fit hbu std_standard hcon hs2 (by decide) hc3
  simp only [Bool.and_eq_true, decide_eq_true_eq] at hf
  obtain ⟨hrec, hf⟩ := hf
  split at hf
  case h_2 => cases hf
  rename_i h hp cdi n crt0 s4 hc4
  have hs4 := call_inService lib_total anchor_fit hbu std_standard hcon hs3 (by decide) hc4
  simp only [Bool.and_eq_true, bne_iff_ne] at hf
  obtain ⟨⟨⟨d1, d2⟩, d3⟩, hf⟩ := hf
  have hr : Resolves s4.st h 3 1 := by
    split at d3
    · rename_i i hi
      rw [beq_iff_eq] at d3
      subst d3
      exact findActive_iff.1 hi
    · cases d3
  have hrec4 : s4.st.supports Feature.recursive := by
    obtain ⟨cmd, reply, st', w', _, _, _, hx, he⟩ := call_ok lib_total anchor_fit hbu std_standard hcon hs3 (by decide) hc4
    cases hx
    have := (C21_config (s := ⟨s3.st, s3.w, List.replicate reply.length 0⟩) hs3 he).1.2.2.1
    unfold State.supports at hrec ⊢
    rw [this]
    exact hrec
  split at hf
  case h_2 => cases hf
  rename_i h1 kx ky crt s5 hc5
  simp only [Bool.and_eq_true, beq_iff_eq, Bool.not_eq_true'] at hf
  obtain ⟨⟨⟨⟨⟨⟨d4, d5⟩, d6⟩, d7⟩, d8⟩, d9⟩, hf⟩ := hf
  have hr' : Resolves s5.st hp 3 0 := by
    split at d5
    · rename_i i hi
      rw [beq_iff_eq] at d5
      subst d5
      exact findActive_iff.1 hi
    · cases d5
  have hact : ActiveChild s5.st 0 9 1 := by
    refine ⟨d6, d8, d9, fun j hj _ _ => ?_⟩
    cases j with
    | zero => unfold Lists at hj; rw [d7] at hj; cases hj
    | succ j => omega
  split at hf
  case h_2 => cases hf
  rename_i v s6 hc6
  split at hf
  case h_2 => cases hf
  rename_i h2 hnew
  split at hf
  case h_2 => cases hf
  rename_i h3 kx' ky' crt' s7 hc7
  obtain ⟨y, hy⟩ := Option.isSome_iff_exists.1 d4
  obtain ⟨y', hy'⟩ := Option.isSome_iff_exists.1 hf
  exact ⟨c, s3, s4, s5, s6, s7, h0, h, hp, h1, h2, h3, cdi, n, crt0, kx, ky, crt, kx', ky', crt', v, y, y', hcon, hs3,
    hrec, hc4, d1, d2, hr, hs4, hrec4, hc5, hr', hact, hc6, hnew, hc7, hy, hy'⟩

/-- A child is derived with 32 sevens, and its certificate says so; then it is extended with 32 eights, and the next
certificate says so. -/
example : ∃ (c : Client) (s s1 s2 s3 : Sys std (Soft (lib.crypto std.profile) × Unit)) (h h1 h2 h3 : Handle)
    (kx ky crt kx' ky' crt' : Bytes) (v : GoValue) (y y' : Cert) (t t' : TcbFields) (e e' : Bytes),
    c.call anchorWires (.certifyKey h (List.replicate 32 1) 0 0) (some s) = (.ok (.key h1 kx ky crt), some s1) ∧
    c.call anchorWires (.derive h1 (List.replicate 32 8) 0x01000000 9 0) (some s1) = (.ok v, some s2) ∧
    c.call anchorWires (.certifyKey h2 (List.replicate 32 1) 0 0) (some s2) = (.ok (.key h3 kx' ky' crt'), some s3) ∧
    readCert crt = some y ∧ readCert crt' = some y' ∧
    Suite.getTcbInfo y.exts (marksCritical s.st) = some t ∧ Suite.getTcbInfo y'.exts (marksCritical s2.st) = some t' ∧
    e = (lib.sha256 (List.replicate 32 0 ++ List.replicate 32 7)).toList ∧
    Suite.verifyMeasurements t (List.replicate 32 7) e = true ∧
    e' = (lib.sha256 (e ++ List.replicate 32 8)).toList ∧
    Suite.verifyMeasurements t' (List.replicate 32 8) e' = true := by
  have hbu : Built std anchor := ⟨rfl, by decide +kernel⟩
  obtain ⟨c, s, s1, s2, s3, s4, h0, h, hp, h1, h2, h3, cdi, n, crt0, kx, ky, crt, kx', ky', crt', v, y, y', hcon, hs,
    hrec, hc1, hne, hnd, hr, hs1, hrec1, hc2, _, _, hc3, hv, hc4, hy, hy'⟩ := flow_facts flowed
  obtain ⟨t, e, a1, a2, a3⟩ := C85_child (loc' := 3) lib_total anchor_fit hbu std_standard hcon hs (by decide) hrec
    ⟨by decide, by decide⟩ (by decide) hc1 (fun _ h => absurd h hne) (fun h => absurd h (by decide))
    (fun _ _ => .refl) hc2 hy
  cases v <;> cases hv
  obtain ⟨t1, t', last, e', b1, b2, b3, b4, b5⟩ := C85_recursive lib_total anchor_fit hbu std_standard hcon hs1 (by decide) hrec1
    hr (fun h => absurd h hnd) hc2 .refl (by decide) hc3 .refl hc4 hy hy'
  obtain rfl := Option.some.inj (a1.symm.trans b1)
  have hl : last = e := by
    unfold Suite.verifyMeasurements at a3
    unfold Suite.cumulativeDigest at b3
    split at a3
    · rename_i g1 g2
      rw [g2] at b3
      simp only [Bool.and_eq_true, beq_iff_eq] at a3
      exact (Option.some.inj b3).symm.trans a3.2
    · cases a3
  subst hl
  have hlen : last = (lib.sha256 (List.replicate 32 0 ++ List.replicate 32 7)).toList := (Option.some.inj a2).symm
  refine ⟨c, s1, s2, s3, s4, h, h1, h2, h3, kx, ky, crt, kx', ky', crt', _, y, y', t, t', last, e', hc2, hc3, hc4, hy, hy',
    a1, b2, hlen, a3, ?_, b5⟩
  unfold Suite.computeExpectedCumulative at b4
  rw [if_pos (by rw [hlen]; simp)] at b4
  exact (Option.some.inj b4).symm

/-- The same with UpdateContextMeasurement. -/
example : ∃ (c : Client) (s s1 s2 s3 : Sys std (Soft (lib.crypto std.profile) × Unit)) (h h1 h2 h3 hp : Handle)
    (kx ky crt kx' ky' crt' : Bytes) (v : GoValue) (y' : Cert) (t' : TcbFields) (e : Bytes),
    c.call anchorWires (.certifyKey h (List.replicate 32 1) 0 0) (some s) = (.ok (.key h1 kx ky crt), some s1) ∧
    c.call anchorWires (.update hp (List.replicate 32 8) 9) (some s1) = (.ok v, some s2) ∧
    c.call anchorWires (.certifyKey h2 (List.replicate 32 1) 0 0) (some s2) = (.ok (.key h3 kx' ky' crt'), some s3) ∧
    readCert crt' = some y' ∧ Suite.getTcbInfo y'.exts (marksCritical s2.st) = some t' ∧
    Suite.verifyMeasurements t' (List.replicate 32 8) e = true := by
  have hbu : Built std anchor := ⟨rfl, by decide +kernel⟩
  obtain ⟨c, s, s1, s2, s3, s4, h0, h, hp, h1, h2, h3, cdi, n, crt0, kx, ky, crt, kx', ky', crt', v, y, y', hcon, hs,
    hrec, hc1, hne, hnd, hr, hs1, hrec1, hc2, hp0, hact, hc3, hv, hc4, hy, hy'⟩ := flow_facts flowedUpdate
  cases v <;> cases hv
  obtain ⟨t1, t', last, e', b1, b2, b3, b4, b5⟩ := C85_updated lib_total anchor_fit hbu std_standard hcon hs1 (by decide) hrec1
    hr (fun h => absurd h hnd) hc2 .refl hp0 hact hc3 .refl hc4 hy hy'
  exact ⟨c, s1, s2, s3, s4, h, h1, h2, h3, hp, kx, ky, crt, kx', ky', crt', _, y', t', e', hc2, hc3, hc4, hy', b2, b5⟩

end Ref
end Dpe

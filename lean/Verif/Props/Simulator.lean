import Verif.Proofs.Simulator
import Verif.Props.AutoInit
/-
C59: the simulator, from its command line to the bytes on its socket.
-/
namespace Dpe

/-- A consistent build rounds the size of certificates to words, as the theorems below require. -/
theorem Cfg.Standard.rounded {cfg : Cfg} (h : cfg.Standard) : cfg.maxCertSize % 4 = 0 := by
  rw [h.cert]; unfold advertised; omega

section
variable {cfg : Cfg} {L : Lib} {a : Artifact}

/-- C59, start: the simulator starts for every command line.  Its instance supports exactly the features
that the command line asks for and the build has not disabled, its flag for critical extensions is the
command line's, and it holds no context, or, with automatic initialisation, the default context that
InitializeContext makes in locality 0. -/
theorem C59_start (args : SimArgs) : ∃ s, simStart cfg L a args = (.ok (), s) ∧ Reachable s.st ∧
    (∀ f, s.st.supports f ↔ args.asks f ∧ ¬ Bit cfg.disabled f) ∧
    s.st.flags = (if args.critical then 0x8000 else 0) ∧ s.out = [] ∧
    (¬ s.st.supports Feature.autoInit → ∀ i, (s.st.at i).state = .inactive) ∧
    (s.st.supports Feature.autoInit → AfterDefaultInit args.support args.flags 0 s.st) := by
  have hsup : ∀ f, (State.new cfg args.support args.flags).supports f ↔ args.asks f ∧ ¬ Bit cfg.disabled f := by
    intro f
    by_cases hf : f < 32
    · rw [← support_bit args hf]
      simp [State.supports, State.new, Bit, hf]
    · constructor
      · intro h
        have : (args.support &&& ~~~cfg.disabled).getLsbD f = false := BitVec.getLsbD_of_ge _ _ (by omega)
        rw [State.supports, Bit, State.new, this] at h
        cases h
      · rintro ⟨h, _⟩
        simp only [SimArgs.asks, List.mem_cons, Prod.mk.injEq, List.not_mem_nil, or_false, Feature.simulation,
          Feature.recursive, Feature.autoInit, Feature.rotate, Feature.x509, Feature.csr, Feature.internalInfo,
          Feature.internalDice, Feature.retainParent, Feature.cdiExport] at h
        omega
  rcases h : simStart cfg L a args with ⟨r, s⟩
  have hr : Reachable s.st := by
    have := Reachable.create (device L a cfg.profile) _ (Soft.new (L.crypto cfg.profile), ()) [] (.new (cfg := cfg) args.support args.flags)
    rw [show dpeNew (device L a cfg.profile) ⟨State.new cfg args.support args.flags, (Soft.new _, ()), []⟩ = (r, s) from h] at this
    exact this
  obtain ⟨h0, ⟨h1, rfl, h2⟩ | ⟨_, e, h1, _⟩ | ⟨h1, loc, h2, rfl, h3⟩⟩ := dpeNew_new h
  · refine ⟨s, rfl, hr, ?_, ?_, h0, ?_, ?_⟩
    · rw [h2]; exact hsup
    · rw [h2]; exact flags_eq args
    · intro _ i
      rw [h2, at_new]; rfl
    · intro h; rw [h2] at h; exact absurd h h1
  · cases (Prod.mk.inj h1).1
  · obtain rfl : 0 = loc := Except.ok.inj (Prod.mk.inj h2).1
    have hs : s.st.support = (State.new cfg args.support args.flags).support := by rw [h3]; rfl
    refine ⟨s, rfl, hr, ?_, ?_, h0, ?_, ?_⟩
    · intro f
      rw [State.supports, hs]; exact hsup f
    · rw [h3]; exact flags_eq args
    · intro h
      rw [State.supports, hs] at h; exact absurd h1 h
    · intro _
      rw [h3]; exact afterInit

variable {addr : Nat} {sent : Bytes} {s : Sys cfg (Soft (L.crypto cfg.profile) × Unit)}

/-- C59: the simulator answers exactly the well-formed requests; on any other it dies, without a change of
state. -/
theorem C59_answered (hL : L.Total) (ha : a.Fit) (hb : Built cfg a) (hm : cfg.maxCertSize % 4 = 0)
    (hst : InService s.st) :
    ((∃ b, (handleRequest ((device L a cfg.profile).env cfg) addr sent s).1 = some b) ↔
      ∃ loc, ∃ c : Cmd cfg, IsRequest addr sent loc c) ∧
    ((¬ ∃ loc, ∃ c : Cmd cfg, IsRequest addr sent loc c) →
      handleRequest ((device L a cfg.profile).env cfg) addr sent s = (none, s)) := by
  rcases h : handleRequest ((device L a cfg.profile).env cfg) addr sent s with ⟨ans, s'⟩
  rcases handle_cases hL ha hb hm hst h with ⟨h1, rfl, rfl⟩ | ⟨loc, c, b, h1, rfl, _⟩
  · refine ⟨⟨?_, fun h => absurd h h1⟩, fun _ => rfl⟩
    rintro ⟨_, h⟩; cases h
  · exact ⟨⟨fun _ => ⟨loc, c, h1⟩, fun _ => ⟨b, rfl⟩⟩, fun h => absurd ⟨loc, c, h1⟩ h⟩

/-- C59: if the requested command succeeds, the simulator writes back its reply and no byte more, and goes
over to the state after the command. -/
theorem C59_served (hL : L.Total) (ha : a.Fit) (hb : Built cfg a) (hm : cfg.maxCertSize % 4 = 0)
    (hst : InService s.st) {loc : U32} {c : Cmd cfg} (hr : IsRequest addr sent loc c) {reply : Bytes}
    {st' : State cfg} {w' : Soft (L.crypto cfg.profile) × Unit}
    (hs : Succeeds (device L a cfg.profile) s.st loc s.w c reply st' w') :
    handleRequest ((device L a cfg.profile).env cfg) addr sent s = (some reply, ⟨st', w', s.out⟩) := by
  rcases h : handleRequest ((device L a cfg.profile).env cfg) addr sent s with ⟨ans, s'⟩
  rcases handle_cases hL ha hb hm hst h with ⟨h1, _⟩ | ⟨loc', c', b, h1, rfl, h2, _, h3⟩
  · exact absurd ⟨loc, c, hr⟩ h1
  · obtain ⟨rfl, rfl⟩ := hr.unique hb h1
    rcases h3 with h3 | ⟨h3, _⟩
    · obtain ⟨hfit, hser, _⟩ := C58_meets (cfg := cfg) (L := L) hL ha 0
      obtain ⟨rfl, h4, h5⟩ := C57_unique hst hs.1 (fun _ => ⟨hfit, hser⟩) hs.2.1 h3.2.1
      rw [h4, h5, ← h2]
    · exact absurd ⟨_, _, _, hs⟩ h3

/-- C59: if the requested command does not succeed, the answer is an error of twelve bytes whose status
word is not zero and names a proper cause, and the state is as before, apart from an update cut short. -/
theorem C59_failed (hL : L.Total) (ha : a.Fit) (hb : Built cfg a) (hm : cfg.maxCertSize % 4 = 0)
    (hst : InService s.st) {loc : U32} {c : Cmd cfg} (hr : IsRequest addr sent loc c)
    (hs : ¬ ∃ reply st' w', Succeeds (device L a cfg.profile) s.st loc s.w c reply st' w') :
    ∃ e s', handleRequest ((device L a cfg.profile).env cfg) addr sent s =
        (some (errorAnswer cfg.profile e), s') ∧ statusWord e ≠ 0 ∧
      Blamed (device L a cfg.profile) ⟨s.st, s.w, List.replicate (c.respKind.size cfg) 0⟩ loc c e ∧
      (s'.st = s.st ∨ ∃ u, c = .update u ∧ HalfUpdate s.st u loc s'.st) := by
  rcases h : handleRequest ((device L a cfg.profile).env cfg) addr sent s with ⟨ans, s'⟩
  rcases handle_cases hL ha hb hm hst h with ⟨h1, _⟩ | ⟨loc', c', b, h1, rfl, h2, _, h3⟩
  · exact absurd ⟨loc, c, hr⟩ h1
  · obtain ⟨rfl, rfl⟩ := hr.unique hb h1
    rcases h3 with h3 | ⟨_, e, rfl, h4, h5, h6⟩
    · exact absurd ⟨_, _, _, h3⟩ hs
    · exact ⟨e, s', rfl, h4, h5, h6⟩

/-- C59: success or failure can be read off the second word of the answer: it is zero exactly if the
command has succeeded. -/
theorem C59_status (hL : L.Total) (ha : a.Fit) (hb : Built cfg a) (hm : cfg.maxCertSize % 4 = 0)
    (hst : InService s.st) {loc : U32} {c : Cmd cfg} (hr : IsRequest addr sent loc c) {b : Bytes}
    (h : (handleRequest ((device L a cfg.profile).env cfg) addr sent s).1 = some b) :
    ∃ status rest, b = [0x52, 0x45, 0x50, 0x44] ++ word status ++ word (wireProfile cfg.profile) ++ rest ∧
      (status = 0 ↔ ∃ reply st' w', Succeeds (device L a cfg.profile) s.st loc s.w c reply st' w') := by
  by_cases hs : ∃ reply st' w', Succeeds (device L a cfg.profile) s.st loc s.w c reply st' w'
  · obtain ⟨reply, st', w', hs⟩ := hs
    rw [C59_served hL ha hb hm hst hr hs] at h
    obtain rfl := Option.some.inj h
    obtain ⟨rest, hb⟩ := Serves.begins hs.2.1
    refine ⟨0, rest, ?_, iff_of_true rfl ⟨_, _, _, hs⟩⟩
    rw [hb]
    cases cfg.profile <;> rfl
  · obtain ⟨e, s', h1, h2, _⟩ := C59_failed hL ha hb hm hst hr hs
    rw [h1] at h
    obtain rfl := Option.some.inj h
    exact ⟨statusWord e, [], by rw [List.append_nil]; rfl, iff_of_false h2 hs⟩

/-- C59: the simulator holds the conversation it promises, for any sequence of requests, and remains in
reachable states. -/
theorem C59_loop (hL : L.Total) (ha : a.Fit) (hb : Built cfg a) (hm : cfg.maxCertSize % 4 = 0)
    (reqs : List (Nat × Bytes)) : ∀ {s s' : Sys cfg (Soft (L.crypto cfg.profile) × Unit)} {answers : List Bytes}
    {alive : Bool}, InService s.st → simLoop ((device L a cfg.profile).env cfg) reqs s = (answers, alive, s') →
    Conversation (device L a cfg.profile) s.st s.w reqs answers alive s'.st s'.w ∧ InService s'.st := by
  induction reqs with
  | nil => rintro s s' answers alive hst h; cases h; exact ⟨.done, hst⟩
  | cons req reqs ih =>
    rintro s s' answers alive hst h
    obtain ⟨addr, sent⟩ := req
    rw [simLoop] at h
    rcases hh : handleRequest ((device L a cfg.profile).env cfg) addr sent s with ⟨ans, s1⟩
    rw [hh] at h
    rcases handle_cases hL ha hb hm hst hh with ⟨h1, rfl, rfl⟩ | ⟨loc, c, b, h1, rfl, _, h2, h3⟩
    · cases h
      exact ⟨.crash h1, hst⟩
    · rcases hl : simLoop ((device L a cfg.profile).env cfg) reqs s1 with ⟨bs, al, s2⟩
      simp only [hl] at h
      obtain ⟨i1, i2⟩ := ih h2 hl
      cases h
      rcases h3 with h3 | ⟨h3, e, rfl, h4, h5, h6⟩
      · exact ⟨.served h1 h3 i1, i2⟩
      · exact ⟨.failed h1 h3 h4 h5 h6 i1, i2⟩

/-- C59: the simulator survives exactly if every request is well-formed; then it answers each. -/
theorem C59_alive (hL : L.Total) (ha : a.Fit) (hb : Built cfg a) (hm : cfg.maxCertSize % 4 = 0)
    {reqs : List (Nat × Bytes)} {s' : Sys cfg (Soft (L.crypto cfg.profile) × Unit)} {answers : List Bytes}
    {alive : Bool} (hst : InService s.st)
    (h : simLoop ((device L a cfg.profile).env cfg) reqs s = (answers, alive, s')) :
    (alive = true ↔ ∀ r ∈ reqs, ∃ loc, ∃ c : Cmd cfg, IsRequest r.1 r.2 loc c) ∧
    (alive = true → answers.length = reqs.length) := by
  have hc := (C59_loop hL ha hb hm reqs hst h).1
  clear h hst
  generalize s.st = st, s.w = w, s'.st = st', s'.w = w' at hc
  induction hc with
  | done => simp
  | crash h => simp [h]
  | served h _ _ ih =>
    simp only [List.mem_cons, forall_eq_or_imp, List.length_cons, ih.1]
    exact ⟨⟨fun h' => ⟨⟨_, _, h⟩, h'⟩, fun h' => h'.2⟩, fun h' => by rw [ih.2 (ih.1.2 h')]⟩
  | failed h _ _ _ _ _ ih =>
    simp only [List.mem_cons, forall_eq_or_imp, List.length_cons, ih.1]
    exact ⟨⟨fun h' => ⟨⟨_, _, h⟩, h'⟩, fun h' => h'.2⟩, fun h' => by rw [ih.2 (ih.1.2 h')]⟩

end

/-! ### Concrete cases -/
namespace Ref

/-- The command line with the features of the tests, without automatic initialisation. -/
def args : SimArgs := ⟨true, true, false, true, true, true, true, true, true, true, false⟩

/-- The requests GetProfile, InitializeContext (default), InitializeContext again, DestroyContext and one
that ends after its locality; the first with bytes to spare. -/
def requests : List (Nat × Bytes) :=
  [(0, [3, 0, 0, 0, 0x43, 0x45, 0x50, 0x44, 1, 0, 0, 0, 3, 0, 0, 0, 7, 7]),
   (4, [3, 0, 0, 0, 0x43, 0x45, 0x50, 0x44, 7, 0, 0, 0, 3, 0, 0, 0, 0, 0, 0, 0x40]),
   (8, [3, 0, 0, 0, 0x43, 0x45, 0x50, 0x44, 7, 0, 0, 0, 3, 0, 0, 0, 0, 0, 0, 0x40]),
   (12, [3, 0, 0, 0, 0x43, 0x45, 0x50, 0x44, 0x0f, 0, 0, 0, 3, 0, 0, 0] ++ List.replicate 16 0),
   (0, [3, 0, 0, 0]), (0, [])]

/-- The simulator answers four of them and dies; the second InitializeContext is refused. -/
example : (simLoop ((device lib cert cfg.profile).env cfg) requests (simStart cfg lib cert args).2).1 =
      [[0x52, 0x45, 0x50, 0x44, 0, 0, 0, 0, 3, 0, 0, 0, 0, 0, 13, 0, 0, 0, 0, 0, 0, 0, 0, 0, 4, 0, 0, 0,
        0, 0, 0x6c, 0xce],
       [0x52, 0x45, 0x50, 0x44, 0, 0, 0, 0, 3, 0, 0, 0] ++ List.replicate 16 0,
       [0x52, 0x45, 0x50, 0x44, 0x83, 0, 0, 0, 3, 0, 0, 0],
       [0x52, 0x45, 0x50, 0x44, 0, 0, 0, 0, 3, 0, 0, 0]] := by decide +kernel

example : (simLoop ((device lib cert cfg.profile).env cfg) requests (simStart cfg lib cert args).2).2.1 = false := by
  decide +kernel

end Ref
end Dpe

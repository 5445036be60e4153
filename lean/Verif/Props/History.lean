import Verif.Props.Keys
import Verif.Props.Measure
import Verif.Examples.Story
/-
C56: a certified key stands for the whole measurement history of the context and its ancestors.
-/
namespace Dpe
variable {cfg : Cfg} {H : Bytes → Bytes}

/-! ## Measurement registers -/

theorem registerInputs_snoc (acc : Bytes) (ms : List Bytes) (m : Bytes) :
    registerInputs H acc (ms ++ [m]) =
      registerInputs H acc ms ++ [ms.foldl (fun a m => H (a ++ m)) acc ++ m] := by
  induction ms generalizing acc with
  | nil => rfl
  | cons x ms ih => simp only [List.cons_append, registerInputs, ih, List.foldl_cons]

/-- The inputs of a register that starts at zero. -/
theorem registerInputs_concat (n : Nat) (ms : List Bytes) (m : Bytes) :
    registerInputs H (List.replicate n 0) (ms ++ [m]) =
      registerInputs H (List.replicate n 0) ms ++ [hashChain H n ms ++ m] :=
  registerInputs_snoc _ ms m

theorem snoc_cases (ms : List Bytes) : ms = [] ∨ ∃ l m, ms = l ++ [m] := by
  rcases List.eq_nil_or_concat ms with h | ⟨l, m, h⟩
  · exact .inl h
  · exact .inr ⟨l, m, by simpa using h⟩

/-- Two registers that were extended with measurements of one size have the same value only if they
were extended with the same measurements in the same order, or if the hash function takes an input of
the one and a different input of the other to the same output, or if it takes an input to zero. -/
theorem C56_register {n : Nat} (a b : List Bytes) (ha : ∀ m ∈ a, m.length = n)
    (hb : ∀ m ∈ b, m.length = n) (h : hashChain H n a = hashChain H n b) :
    a = b ∨
    (∃ x ∈ registerInputs H (List.replicate n 0) a, ∃ y ∈ registerInputs H (List.replicate n 0) b,
      Clash H x y) ∨
    ∃ x ∈ registerInputs H (List.replicate n 0) a ++ registerInputs H (List.replicate n 0) b,
      H x = List.replicate n 0 := by
  induction hk : a.length generalizing a b with
  | zero =>
    obtain rfl := List.eq_nil_of_length_eq_zero hk
    rcases snoc_cases b with rfl | ⟨l, m, rfl⟩
    · exact .inl rfl
    · refine .inr (.inr ⟨hashChain H n l ++ m, ?_, ?_⟩)
      · rw [registerInputs_concat]; simp
      · rw [hashChain_snoc] at h; exact h.symm
  | succ k ih =>
    rcases snoc_cases a with rfl | ⟨l, m, rfl⟩
    · cases hk
    rcases snoc_cases b with rfl | ⟨l', m', rfl⟩
    · refine .inr (.inr ⟨hashChain H n l ++ m, ?_, ?_⟩)
      · rw [registerInputs_concat]; simp
      · rw [hashChain_snoc] at h; exact h
    rw [hashChain_snoc, hashChain_snoc] at h
    rw [registerInputs_concat, registerInputs_concat]
    by_cases he : hashChain H n l ++ m = hashChain H n l' ++ m'
    · obtain ⟨h1, rfl⟩ := List.append_inj' he (by
        rw [ha m (by simp), hb m' (by simp)])
      rcases ih l l' (fun x hx => ha x (by simp [hx])) (fun x hx => hb x (by simp [hx])) h1
          (by simpa using hk) with rfl | ⟨x, hx, y, hy, hc⟩ | ⟨x, hx, hz⟩
      · exact .inl rfl
      · exact .inr (.inl ⟨x, by simp [hx], y, by simp [hy], hc⟩)
      · refine .inr (.inr ⟨x, ?_, hz⟩)
        rcases List.mem_append.1 hx with hx | hx <;> simp [hx]
    · exact .inr (.inl ⟨_, by simp, _, by simp, he, h⟩)

/-! ## Keys -/

/-- A typed context whose TCI is imitated: its register hit the imitation. -/
theorem Imitated.hits {st : State cfg} {log : Nat → List Bytes} (hl : Logged H log st) {j : Nat}
    (hj : Live st j) {input : Bytes} (h : Imitated st j input) :
    Hits cfg H (log j) ((input.drop 4).take cfg.tciSize) := by
  have h1 := (C19_typed hl hj).1 h.1
  rcases snoc_cases (log j) with e | ⟨l, m, e⟩
  · exact absurd e h1
  · refine ⟨hashChain H cfg.tciSize l ++ m, ?_, ?_⟩
    · rw [contextInputs, e, registerInputs_concat]; simp
    · rw [← h.2, (C19_cumulative hl hj).1, e, hashChain_snoc]

variable {P : Prims} {τ τ' : Type} {plat : Ops τ} {plat' : Ops τ'} {loc loc' : U32}
  {n n' : Nat} {r r' : Sys cfg (Soft P × τ)} {u u' : Sys cfg (Soft P × τ')}

theorem same_story {st st' : State cfg} {log log' : Nat → List Bytes} {path path' : List Nat}
    {i i' : Nat} {input input' : Bytes}
    (hl : Logged H log st) (hl' : Logged H log' st') (hp : Path st i path) (hp' : Path st' i' path')
    (hlen : path.length = path'.length)
    (hs : ∀ k j j' : Nat, path[k]? = some j → path'[k]? = some j' → SameNode (st.at j) (st'.at j')) :
    SameStory st log path st' log' path' ∨
    RegisterCoincidence cfg H log path log' path' input input' := by
  by_cases hc : RegisterCoincidence cfg H log path log' path' input input'
  · exact .inr hc
  refine .inl ⟨hlen, fun k j j' hj hj' => ⟨hs k j j' hj hj', ?_⟩⟩
  have mj := List.mem_of_getElem? hj
  have mj' := List.mem_of_getElem? hj'
  have lj := hp.all_live mj
  have lj' := hp'.all_live mj'
  have he : hashChain H cfg.tciSize (log j) = hashChain H cfg.tciSize (log' j') := by
    rw [← (C19_cumulative hl lj).1, ← (C19_cumulative hl' lj').1, (hs k j j' hj hj').2.1]
  rcases C56_register _ _ (C19_typed hl lj).2 (C19_typed hl' lj').2 he with h | ⟨x, hx, y, hy, h⟩ |
      ⟨x, hx, h⟩
  · exact h
  · exact absurd (.clash hj hj' hx hy h) hc
  · rcases List.mem_append.1 hx with hx | hx
    · exact absurd (.zero mj ⟨x, hx, h⟩) hc
    · exact absurd (.zero' mj' ⟨x, hx, h⟩) hc

/-- The same bytes are hashed for two ancestries only if they tell the same story, or by a coincidence
in the registers. -/
theorem C56_story {st st' : State cfg} {log log' : Nat → List Bytes} {path path' : List Nat}
    {i i' : Nat} {info chain info' chain' : Bytes}
    (hl : Logged H log st) (hl' : Logged H log' st') (hp : Path st i path) (hp' : Path st' i' path')
    (hi : Inputs plat st path info chain) (hi' : Inputs plat' st' path' info' chain')
    (hd : ServesDer plat) (hd' : ServesDer plat')
    (he : contentBytes st path info chain = contentBytes st' path' info' chain') :
    (SameStory st log path st' log' path' ∧ info = info' ∧ chain = chain') ∨
    RegisterCoincidence cfg H log path log' path' (info ++ chain) (info' ++ chain') := by
  rcases Nat.le_total path.length path'.length with hle | hle
  · rcases content_der hi.content hi'.content (hi.der hd) (hi'.der hd') hle he with
      ⟨h1, h2, h3, h4⟩ | ⟨j', hj', him⟩
    · rcases same_story hl hl' hp hp' h1 h2 with h | h
      · exact .inl ⟨h, h3, h4⟩
      · exact .inr h
    · have mj' := List.mem_of_getElem? hj'
      exact .inr (.hit' mj' (him.hits hl' (hp'.all_live mj')))
  · rcases content_der hi'.content hi.content (hi'.der hd') (hi.der hd) hle he.symm with
      ⟨h1, h2, h3, h4⟩ | ⟨j', hj', him⟩
    · have h2' : ∀ k j j' : Nat, path[k]? = some j → path'[k]? = some j' →
          SameNode (st.at j) (st'.at j') := fun k j j' hj hj' =>
        let ⟨a1, a2, a3, a4, a5, a6⟩ := h2 k j' j hj' hj
        ⟨a1.symm, a2.symm, a3.symm, a4.symm, a5.symm, a6.symm⟩
      rcases same_story hl hl' hp hp' h1.symm h2' with h | h
      · exact .inl ⟨h, h3.symm, h4.symm⟩
      · exact .inr h
    · have mj' := List.mem_of_getElem? hj'
      exact .inr (.hit mj' (him.hits hl (hp.all_live mj')))

/-- C56: two commands CertifyKey, possibly on different devices, return the same public key only if the
labels are the same and the two contexts and their ancestors have the same story: types, localities,
SVNs, permissions and every measurement ever taken into them, in order.  Otherwise one of the
cryptographic functions has taken the inputs given to it on the one side and different inputs given to
it on the other side to the same output, or a measurement register has hit zero or a stretch of the
platform's data. -/
theorem C56_certified {c c' : CertifyCmd} {log log' : Nat → List Bytes}
    (hd : Decent cfg (softOps P plat)) (hd' : Decent cfg (softOps P plat'))
    (hs : ServesDer plat) (hs' : ServesDer plat')
    (hl : Logged P.hash log r.st) (hl' : Logged P.hash log' u.st)
    (h : exec ((softOps P plat).env cfg) (.certify c) loc r = (.ok n, r'))
    (h' : exec ((softOps P plat').env cfg) (.certify c') loc' u = (.ok n', u'))
    (he : keyIn c r'.out = keyIn c' u'.out) :
    ∃ i path info chain cdi priv i' path' info' chain' cdi' priv',
      Resolves r.st c.handle loc i ∧ Path r.st i path ∧ Inputs plat r.st path info chain ∧
      Resolves u.st c'.handle loc' i' ∧ Path u.st i' path' ∧ Inputs plat' u.st path' info' chain' ∧
      LeafKey P cfg.profile (contentBytes r.st path info chain) c.label cdi priv ∧
      LeafKey P cfg.profile (contentBytes u.st path' info' chain') c'.label cdi' priv' ∧
      ((c.label = c'.label ∧ SameStory r.st log path u.st log' path' ∧ info = info' ∧ chain = chain') ∨
        ClashOk P.pub priv priv' ∨
        Coincidence P cfg.profile (contentBytes r.st path info chain) c.label cdi
          (contentBytes u.st path' info' chain') c'.label cdi' ∨
        RegisterCoincidence cfg P.hash log path log' path' (info ++ chain) (info' ++ chain')) := by
  obtain ⟨i, path, fed, cdi, priv, i', path', fed', cdi', priv', a1, a2, a3, b1, b2, b3, hor⟩ :=
    C55_certified hd hd' hl.reachable hl'.reachable h h' he
  obtain ⟨info, chain, a4, rfl, a5⟩ := a3
  obtain ⟨info', chain', b4, rfl, b5⟩ := b3
  refine ⟨i, path, info, chain, cdi, priv, i', path', info', chain', cdi', priv', a1, a2, a4, b1, b2, b4,
    a5, b5, ?_⟩
  rcases hor with hor | hor | ⟨h1, h2⟩
  · exact .inr (.inl hor)
  · exact .inr (.inr (.inl hor))
  · rcases C56_story hl hl' a2 b2 a4 b4 hs hs' h2 with h3 | h3
    · exact .inl ⟨h1, h3⟩
    · exact .inr (.inr (.inr h3))

/-! ## Concrete cases -/

/-- A hash that forgets the order of what it is given lets two logs share a register, and
`C56_register` names the collision. -/
example : ∃ x ∈ registerInputs (fun b => [b.sum]) [0] [[1], [2]],
    ∃ y ∈ registerInputs (fun b => [b.sum]) [0] [[2], [1]], Clash (fun b => [b.sum]) x y := by
  rcases C56_register (H := fun b : Bytes => [b.sum]) (n := 1) [[1], [2]] [[2], [1]] (by decide)
    (by decide) (by decide) with h | h | ⟨x, hx, h⟩
  · exact absurd h (by decide)
  · exact h
  · exfalso
    revert x
    decide

namespace Story

theorem run (m : BArr 32) (hm : m = Vector.replicate 32 0x42 ∨ m = Vector.replicate 32 0x43) :
    Logged prims.hash (log m) (state m) ∧
    ∃ n s', exec (soft.env Story.cfg) (.certify (.p256 Handle.default 0 0 label)) 0
      ⟨state m, wd none [] [], Toy.bigBuf⟩ = (.ok n, s') ∧
      keyIn (.p256 Handle.default 0 0 label) s'.out =
        keyFields (Toy.pubOf (privOf (state m) label.toList)) := by
  rcases hm with rfl | rfl
  · have h : (started (Vector.replicate 32 0x42)).1 = .ok () := by decide +kernel
    exact ⟨logged h, certifies h (by decide +kernel) (by decide +kernel) (by decide +kernel)
      (by decide +kernel) (by decide +kernel) (by decide +kernel) (by decide +kernel)
      (by decide +kernel)⟩
  · have h : (started (Vector.replicate 32 0x43)).1 = .ok () := by decide +kernel
    exact ⟨logged h, certifies h (by decide +kernel) (by decide +kernel) (by decide +kernel)
      (by decide +kernel) (by decide +kernel) (by decide +kernel) (by decide +kernel)
      (by decide +kernel)⟩

end Story

/-- Two devices started with the same measurement certify the same key, and `C56_certified` applies. -/
example : ∃ n r' n' u',
    exec (Story.soft.env Story.cfg) (.certify (.p256 Handle.default 0 0 Story.label)) 0
      ⟨Story.state (Vector.replicate 32 0x42), Story.wd none [] [], Toy.bigBuf⟩ = (.ok n, r') ∧
    exec (Story.soft.env Story.cfg) (.certify (.p256 Handle.default 0 0 Story.label)) 0
      ⟨Story.state (Vector.replicate 32 0x42), Story.wd none [] [], Toy.bigBuf⟩ = (.ok n', u') ∧
    ∃ i path info chain cdi priv, Resolves (Story.state (Vector.replicate 32 0x42)) Handle.default 0 i ∧
      Path (Story.state (Vector.replicate 32 0x42)) i path ∧
      LeafKey Story.prims .p256 (contentBytes (Story.state (Vector.replicate 32 0x42)) path info chain)
        Story.label.toList cdi priv := by
  obtain ⟨hl, n, r', h, hk⟩ := Story.run _ (.inl rfl)
  obtain ⟨i, path, info, chain, cdi, priv, _, _, _, _, _, _, a1, a2, _, _, _, _, a5, _⟩ :=
    C56_certified (P := Story.prims) (plat := Story.plat) (plat' := Story.plat) Story.decent Story.decent
      Story.serves Story.serves hl hl h h rfl
  exact ⟨n, r', n, r', h, h, i, path, info, chain, cdi, priv, a1, a2, a5⟩

/-- Devices started with different measurements certify different keys. -/
example : ∃ n r' n' u',
    exec (Story.soft.env Story.cfg) (.certify (.p256 Handle.default 0 0 Story.label)) 0
      ⟨Story.state (Vector.replicate 32 0x42), Story.wd none [] [], Toy.bigBuf⟩ = (.ok n, r') ∧
    exec (Story.soft.env Story.cfg) (.certify (.p256 Handle.default 0 0 Story.label)) 0
      ⟨Story.state (Vector.replicate 32 0x43), Story.wd none [] [], Toy.bigBuf⟩ = (.ok n', u') ∧
    keyIn (.p256 Handle.default 0 0 Story.label) r'.out ≠
      keyIn (.p256 Handle.default 0 0 Story.label) u'.out := by
  obtain ⟨_, n, r', h, hk⟩ := Story.run _ (.inl rfl)
  obtain ⟨_, n', u', h', hk'⟩ := Story.run _ (.inr rfl)
  refine ⟨n, r', n', u', h, h', ?_⟩
  rw [hk, hk']
  decide +kernel

end Dpe

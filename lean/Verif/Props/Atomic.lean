import Verif.Proofs.Calls
import Verif.Examples.Toy
/-
C10: failed commands.  The property as stated is false of the code in three ways, each shown
by a concrete execution below; `C10_partial` gives the exact exceptions and
`C10_adequate_partial` the conditions under which it holds.
-/
namespace Dpe
variable {cfg : Cfg} {σ : Type} {env : Env cfg σ} {D : Bytes → Bytes → Prop} {c : Cmd cfg}
  {loc : U32} {s s' : Sys cfg σ} {e : Err}

/-- C10 (partial): a failed command leaves the whole DPE state as it was, unless
* the response buffer could not take the reply (the effect was committed in full),
* UpdateContextMeasurement failed to replace the child's handle (the parent's handle is
  already replaced), or
* CertifyKey's key turned out to be of another algorithm (the handle is already replaced).
The full property (no exception) is false, see the witnesses below. -/
theorem C10_partial (hst : InService s.st) (hD : Digests env.toOps D)
    (h : exec env c loc s = (.error e, s')) :
    s'.st = s.st ∨
    (e = .invalidResponseBuf ∧ NoFit env s c ∧ ∃ hs, Effect D s.st loc c hs s'.st) ∨
    ((e = .internal .handleGenerationExhausted ∨ ∃ ce, e = .crypto ce) ∧
      ∃ u, c = .update u ∧ HalfUpdate s.st u loc s'.st) ∨
    (e = .invalidArgument ∧ ∃ k hd, c = .certify k ∧ UseEffect s.st k.handle loc hd s'.st ∧
      WrongKey env s k) := by
  rcases exec_outcome hst.wf hD h with ⟨_, h1⟩ | ⟨hs, h1, h2⟩ | ⟨u, e', h0, h1, h2, h3⟩ |
    ⟨k, hd, h0, h1, h2, h3⟩
  · exact .inl h1
  · rcases h2 with ⟨_, h2, _⟩ | ⟨h2, h3⟩
    · cases h2
    · cases h2; exact .inr (.inl ⟨rfl, h3, hs, h1⟩)
  · cases h1; exact .inr (.inr (.inl ⟨h2, u, h0, h3⟩))
  · cases h1; exact .inr (.inr (.inr ⟨rfl, k, hd, h0, h2, h3⟩))

/-- C10 (partial): with a response buffer that can hold the command's reply, a certificate generator that
does not shrink its window and returns keys of the command's algorithm, a failed command other
than UpdateContextMeasurement changes nothing. -/
theorem C10_adequate_partial (hst : InService s.st) (hbuf : c.replyMax ≤ s.out.length)
    (hwin : ∀ kind args st w win, win.length ≤ (env.certGen kind args st w win).2.length)
    (hkey : ∀ kind args st w win res w' win' k, c = .certify k →
      env.certGen kind args st w win = ((.ok res, w'), win') → res.pubKey.kind = k.variant)
    (hc : ∀ u, c ≠ .update u) (h : exec env c loc s = (.error e, s')) : s'.st = s.st := by
  rcases C10_partial hst (digests_true _) h with h1 | ⟨_, h1, _⟩ | ⟨_, u, h0, _⟩ |
    ⟨_, k, hd, h0, _, h1⟩
  · exact h1
  · rcases h1 with h1 | ⟨_, kind, args, w, base, h1⟩
    · omega
    · have := hwin kind args s.st w (s.out.drop base); omega
  · exact absurd h0 (hc u)
  · obtain ⟨_, _, _, _, _, _, _, h2, h3⟩ := h1
    exact absurd (hkey _ _ _ _ _ _ _ _ k h0 h2) h3

/-- Non-vacuity: a failing command under the conditions of `C10_adequate_partial` (deriving
through a stale handle). -/
example : ∃ s', exec Toy.env Toy.s3cmd 0 { Toy.s3.sys with out := List.replicate 5000 0 } =
      (.error .invalidHandle, s') ∧ s'.st = Toy.s3.st := by
  have h0 : (exec Toy.env Toy.s3cmd 0 { Toy.s3.sys with out := List.replicate 5000 0 }).1 =
      .error .invalidHandle := by decide +kernel
  generalize hx : exec Toy.env Toy.s3cmd 0 { Toy.s3.sys with out := List.replicate 5000 0 } = x
    at h0
  obtain ⟨r, s'⟩ := x
  subst h0
  refine ⟨s', rfl, C10_adequate_partial
    (s := { Toy.s3.sys with out := List.replicate 5000 0 }) Toy.s3.sys_reach ?_ ?_ ?_ ?_ hx⟩
  · show _ ≤ (List.replicate 5000 (0 : UInt8)).length
    rw [List.length_replicate]; decide
  · intro kind args st w win
    simp only [Toy.env, List.length_append, List.length_drop, List.length_cons, List.length_nil]
    omega
  · intro _ _ _ _ _ _ _ _ k hk; cases hk
  · intro u hu; cases hu

/-- Witness 1 against C10: with a 20-byte buffer a default initialisation reports
InvalidResponseBuf although the root context has been created and the instance is marked
initialised (no later default initialisation can succeed). -/
theorem C10_false_small_buffer :
    ∃ s', exec Toy.env (.init 0x40000000) 0 { Toy.s0.sys with out := List.replicate 20 0 } =
        (.error .invalidResponseBuf, s') ∧
      Toy.s0.st.hasInitialized = false ∧ s'.st.hasInitialized = true ∧
      (Toy.s0.st.at 0).state = .inactive ∧ (s'.st.at 0).state = .active :=
  ⟨_, Prod.ext (by decide +kernel) rfl, by decide +kernel⟩

/-- The toy environment with a random source that fails after the first draw. -/
def Toy.oneDraw : Env Toy.cfg Nat :=
  { Toy.env with
    rand := fun n => if n = 100 then (.ok (Toy.hd 50), 101) else (.error .notImplemented, n) }

/-- Witness 2 against C10: UpdateContextMeasurement whose second random draw fails reports the
crypto error although the parent's handle has been replaced (the caller's handle is dead and
no new one was returned). -/
theorem C10_false_update :
    ∃ s', exec Toy.oneDraw (.update ⟨Toy.hd 2, Toy.data 9 9, 0, 5, 0⟩) 0
        { Toy.s3.sys with w := 100 } = (.error (.crypto .notImplemented), s') ∧
      (Toy.s3.st.at 0).handle = Toy.hd 2 ∧ (s'.st.at 0).handle = Toy.hd 50 ∧
      s'.st.at 1 = Toy.s3.st.at 1 :=
  ⟨_, Prod.ext (by decide +kernel) rfl, by decide +kernel⟩

/-- Witness 3 against C10: CertifyKey for P-384 on a P-256 back end reports InvalidArgument
although the context's handle has been replaced. -/
theorem C10_false_key_kind :
    ∃ s', exec Toy.env (.certify (.p384 (Toy.hd 4) 0 0 (Vector.replicate 48 0))) 0 Toy.s4.sys =
        (.error .invalidArgument, s') ∧
      (Toy.s4.st.at 2).handle = Toy.hd 4 ∧ (s'.st.at 2).handle = Toy.hd 5 :=
  ⟨_, Prod.ext (by decide +kernel) rfl, by decide +kernel⟩

end Dpe

import Verif.Spec.Soft
import Verif.Model.X509
/-
The certificate writer reaches the outside world only through the signing callback, and the callback only
through the operations of the platform.
-/
namespace Dpe
variable {cfg : Cfg} {σ α β : Type} {ops : Ops σ}

theorem OpCalls.one {w w' : σ} (h : OpCall ops w w') : OpCalls ops w w' := .cons h (.nil _)

theorem OpCalls.trans {w w' w'' : σ} (h : OpCalls ops w w') (h2 : OpCalls ops w' w'') : OpCalls ops w w'' := by
  induction h with
  | nil => exact h2
  | cons h1 _ ih => exact .cons h1 (ih h2)

/-- Closes goals that state that a step is one operation call. -/
macro "op_call" : tactic => `(tactic| (intro w; constructor))

/-- The writer step `m` makes some operation calls. -/
def WCalls (ops : Ops σ) (m : W σ α) : Prop := ∀ s, OpCalls ops s.2 (m s).2.2

namespace WCalls

theorem bind {x : W σ α} {f : α → W σ β} (hx : WCalls ops x) (hf : ∀ a, WCalls ops (f a)) :
    WCalls ops (x >>= f) := by
  intro s
  show OpCalls ops s.2 (W.bind x f s).2.2
  unfold W.bind
  have := hx s
  rcases h : x s with ⟨e | a, s'⟩
  · rw [h] at this; exact this
  · rw [h] at this; exact this.trans (hf a s')

theorem pure (a : α) : WCalls ops (Pure.pure a : W σ α) := fun s => .nil _
theorem enc (e : Enc) : WCalls ops (W.enc e) := fun _ => .nil _
theorem lift (x : Except Err α) : WCalls ops (W.lift x) := fun _ => .nil _

theorem push (n : Nat) : WCalls ops (W.push n) := by
  rintro ⟨w, x⟩; simp only [W.push]; split <;> exact .nil _

theorem pop (n : Nat) : WCalls ops (W.pop n) := by
  rintro ⟨w, x⟩; simp only [W.pop]; split
  · exact .nil _
  · split
    · exact .nil _
    · split <;> exact .nil _

theorem start : WCalls ops W.start := by
  rintro ⟨w, x⟩; simp only [W.start]; split <;> exact .nil _

theorem finish : WCalls ops W.finish := by
  rintro ⟨w, x⟩; simp only [W.finish]; split <;> exact .nil _

theorem checkFits : WCalls ops W.checkFits := by
  rintro ⟨w, x⟩; simp only [W.checkFits]; split <;> exact .nil _

theorem checkPopped : WCalls ops W.checkPopped := by
  rintro ⟨w, x⟩; simp only [W.checkPopped]; split <;> exact .nil _

theorem csrRange : WCalls ops W.csrRange := by
  rintro ⟨w, x⟩; simp only [W.csrRange]; split <;> exact .nil _

theorem setCsrRange (a b : Nat) : WCalls ops (W.setCsrRange a b) := fun _ => .nil _

end WCalls

/-- The callback makes some operation calls. -/
def CbCalls (ops : Ops σ) (cb : SignCb σ) : Prop := ∀ d b x, OpCalls ops x (cb d b x).2

theorem WCalls.sign {cb : SignCb σ} (h : CbCalls ops cb) (a b : Nat) (d : Bool) :
    WCalls ops (W.sign cb a b d) := by
  rintro ⟨w, x⟩
  unfold W.sign
  have := h ((w.buf.drop a).take (b - a)) d x
  rcases e : cb ((w.buf.drop a).take (b - a)) d x with ⟨_ | _, x'⟩ <;> rw [e] at this <;>
    simp only [e] <;> exact this

theorem thenCall_calls {f : σ → Except CryptoErr α × σ} {g : α → σ → Except CryptoErr β × σ}
    (hf : ∀ x, OpCalls ops x (f x).2) (hg : ∀ a x, OpCalls ops x (g a x).2) (x : σ) :
    OpCalls ops x (thenCall f g x).2 := by
  unfold thenCall
  have := hf x
  rcases e : f x with ⟨_ | a, x'⟩ <;> rw [e] at this <;> simp only
  · exact this
  · exact this.trans (hg a x')

theorem signCb_calls (a : CertArgs) (dg : Bytes) (ex : Bool) (h : Option (BArr 32)) :
    CbCalls ops (signCb ops a dg ex h) := by
  intro d b x
  unfold signCb
  split
  · split
    · split
      · exact .nil _
      · exact thenCall_calls (fun x => .one (.deriveKeyPairExported ..)) (fun _ _ => .one (.sign ..)) x
    · exact thenCall_calls (fun x => .one (.deriveCdi ..)) (fun _ => thenCall_calls
        (fun x => .one (.deriveKeyPair ..)) (fun _ _ => .one (.sign ..))) x
  · exact .one (.signAlias ..)

/-- One step of the structural proofs below. -/
macro "w_step" : tactic => `(tactic| first
  | assumption
  | exact WCalls.enc _ | exact WCalls.lift _ | exact WCalls.pure _ | exact WCalls.push _
  | exact WCalls.pop _ | exact WCalls.start | exact WCalls.finish | exact WCalls.checkFits
  | exact WCalls.checkPopped | exact WCalls.csrRange | exact WCalls.setCsrRange _ _
  | exact WCalls.sign (by assumption) _ _ _
  | (refine WCalls.bind ?_ fun _ => ?_)
  | split)

namespace WCalls
variable {cb : SignCb σ}

theorem tcbLoop (p : Profile) (r : Bool) (l : List (Except Err (Context cfg))) :
    WCalls ops (Dpe.tcbLoop p r l) := by
  induction l with
  | nil => exact pure _
  | cons x xs ih => unfold Dpe.tcbLoop; repeat with_reducible w_step

theorem encMultiTcb (p : Profile) (c : Bool) (md : MeasData cfg) : WCalls ops (Dpe.encMultiTcb p c md) := by
  unfold Dpe.encMultiTcb
  have := fun r l => tcbLoop (ops := ops) (cfg := cfg) p r l
  repeat with_reducible first | exact this _ _ | w_step

theorem encExtsWrapper (p : Profile) (c : Bool) (md : MeasData cfg) (b : Bool) :
    WCalls ops (Dpe.encExtsWrapper p c md b) := by
  unfold Dpe.encExtsWrapper; repeat with_reducible w_step

theorem encExts (p : Profile) (c : Bool) (md : MeasData cfg) (b : Bool) :
    WCalls ops (Dpe.encExts p c md b) := by
  unfold Dpe.encExts
  repeat with_reducible first | exact encExtsWrapper _ _ _ _ | exact encMultiTcb _ _ _ | w_step

theorem encRdnChecked (n : Name) : WCalls ops (Dpe.encRdnChecked n) := by
  unfold Dpe.encRdnChecked; repeat with_reducible w_step

theorem encSpki (p : Profile) (k : PubKey) : WCalls ops (Dpe.encSpki p k) := by
  unfold Dpe.encSpki; repeat with_reducible w_step

theorem backfill (n : Nat) : WCalls ops (Dpe.backfill n) := by
  unfold Dpe.backfill; repeat with_reducible w_step

theorem encTbs (p : Profile) (c : Bool) (d : CertData cfg) : WCalls ops (Dpe.encTbs p c d) := by
  unfold Dpe.encTbs
  repeat with_reducible first | exact encRdnChecked _ | exact encSpki _ _ | exact encExts _ _ _ _ | exact backfill _ | w_step

theorem encAttributes (p : Profile) (c : Bool) (md : MeasData cfg) :
    WCalls ops (Dpe.encAttributes p c md) := by
  unfold Dpe.encAttributes
  repeat with_reducible first | exact encExts _ _ _ _ | w_step

theorem encCri (p : Profile) (c : Bool) (d : CertData cfg) : WCalls ops (Dpe.encCri p c d) := by
  unfold Dpe.encCri
  repeat with_reducible first
    | exact encRdnChecked _ | exact encSpki _ _ | exact encAttributes _ _ _ | exact backfill _ | w_step

theorem encPayload (p : Profile) (c : Bool) (d : CertData cfg) (b : Bool) :
    WCalls ops (Dpe.encPayload p c d b) := by
  unfold Dpe.encPayload
  split
  · exact encCri _ _ _
  · exact encTbs _ _ _

theorem encSigned (h : CbCalls ops cb) (p : Profile) (c : Bool) (d : CertData cfg) (b : Bool) :
    WCalls ops (Dpe.encSigned cb p c d b) := by
  unfold Dpe.encSigned
  repeat with_reducible first | exact encPayload _ _ _ _ | exact backfill _ | w_step

theorem encCertOrCsr (h : CbCalls ops cb) (p : Profile) (c : Bool) (d : CertData cfg) (b : Bool) :
    WCalls ops (Dpe.encCertOrCsr cb p c d b) := by
  unfold Dpe.encCertOrCsr
  repeat with_reducible first | exact encSigned h _ _ _ _ | w_step

theorem backfillEncap (a b : Nat) : WCalls ops (Dpe.backfillEncap a b) := by
  unfold Dpe.backfillEncap; repeat with_reducible w_step

theorem encEncap (h : CbCalls ops cb) (p : Profile) (c : Bool) (d : CertData cfg) :
    WCalls ops (Dpe.encEncap cb p c d) := by
  unfold Dpe.encEncap
  repeat with_reducible first | exact encCertOrCsr h _ _ _ _ | exact backfillEncap _ _ | w_step

theorem backfillCms (a b c : Nat) : WCalls ops (Dpe.backfillCms a b c) := by
  unfold Dpe.backfillCms; repeat with_reducible w_step

theorem encCms (h : CbCalls ops cb) (p : Profile) (c : Bool) (d : CertData cfg) (sid : SignerId) :
    WCalls ops (Dpe.encCms cb p c d sid) := by
  unfold Dpe.encCms
  repeat with_reducible first | exact encEncap h _ _ _ | exact backfillCms _ _ _ | w_step

end WCalls

end Dpe

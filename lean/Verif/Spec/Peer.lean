import Verif.Model.Client
import Verif.Spec.Vocab
/-
What a user of the Go client relies on whatever is at the other end: exactly what is sent, and exactly what
is made of any bytes that come back.
-/
namespace Dpe

/-- `c` is a client that has connected to something. -/
def Made (c : Client) : Prop :=
  ∃ (τ : Type) (t : Transport τ) (p : U32) (x x' : τ), newClient t p x = (.ok c, x')

/-- The sizes that go with a profile: measurements and labels, what Sign signs, each half of a public key
(all of it for ML-DSA), and the largest certificate. -/
structure GoSizes where
  digest : Nat
  signData : Nat
  key : Nat
  cert : Nat

/-- The five profiles: the minimal ones (P-256, P-384), the full ones, and ML-DSA. -/
def goSizes (p : U32) : GoSizes :=
  if p = 1 then ⟨32, 32, 32, 2048⟩
  else if p = 2 then ⟨48, 48, 48, 2048⟩
  else if p = 3 then ⟨32, 32, 32, 11264⟩
  else if p = 4 then ⟨48, 48, 48, 11264⟩
  else ⟨48, 64, 2592, 22528⟩

/-- The number of ML-DSA's profile. -/
def goMldsa : U32 := 5

/-- The calls whose arguments have a wrong size for the profile, or that the profile does not have. -/
def Unfit (p : U32) : GoCall → Prop
  | .certifyKey _ l _ _ => l.length ≠ (goSizes p).digest
  | .derive _ d _ _ _ => d.length ≠ (goSizes p).digest
  | .sign _ l _ d => l.length ≠ (goSizes p).digest ∨ d.length ≠ (goSizes p).signData
  | .signRaw _ l m => p ≠ goMldsa ∨ l.length ≠ (goSizes p).digest ∨ 1024 < m.length
  | .update _ d _ => d.length ≠ (goSizes p).digest
  | _ => False

/-- The number of a call's command; version 0.8 of the profile numbers them differently. -/
def goCode (minor : Nat) : GoCall → U32
  | .getProfile => 1
  | .initialize _ => if minor = 8 then 5 else 7
  | .derive _ _ _ _ _ => if minor = 8 then 6 else 8
  | .certifyKey _ _ _ _ => if minor = 8 then 7 else 9
  | .sign _ _ _ _ | .signRaw _ _ _ => if minor = 8 then 8 else 10
  | .rotate _ _ => 14
  | .destroy _ => 15
  | .update _ _ _ => 0x80000000

/-- The arguments of a call's command. -/
def goArgs : GoCall → Bytes
  | .getProfile => []
  | .initialize f => word f
  | .derive h d f y l => h.toList ++ d ++ word f ++ word y ++ word l ++ word 0
  | .certifyKey h l y f => h.toList ++ word f ++ word y ++ l
  | .sign h l f d => h.toList ++ l ++ word f ++ d
  | .signRaw h l m => h.toList ++ l ++ word 1 ++ word (BitVec.ofNat 32 m.length) ++ m ++ List.replicate (1024 - m.length) 0
  | .rotate h f => h.toList ++ word f
  | .destroy h => h.toList
  | .update h d y => h.toList ++ d ++ word 0 ++ word y ++ word 0

/-- A command: the magic number, the command's number, the profile, the arguments. -/
def goMessage (code profile : U32) (args : Bytes) : Bytes := word 0x44504543 ++ word code ++ word profile ++ args

/-- What a call sends.  GetProfile asks without a profile. -/
def goRequest (c : Client) (k : GoCall) : Bytes :=
  goMessage (goCode c.minor.toNat k) (match k with | .getProfile => 0 | _ => c.profile) (goArgs k)

/-- A response: the magic number, the status, the profile, what the command returns. -/
def goAnswer (status profile : U32) (payload : Bytes) : Bytes :=
  word 0x44504552 ++ word status ++ word profile ++ payload

/-- `payload` is the answer to GetProfile with the members of `g`; the profile is in the header. -/
def ProfileReply (profile : U32) (payload : Bytes) (g : GoProfile) : Prop :=
  g.profile = profile ∧ ∃ rest, payload = word16 g.major ++ word16 g.minor ++ word g.vendorId ++ word g.vendorSku ++
    word g.maxTci ++ word g.flags ++ rest

/-- `payload` is what the call should return, with any bytes behind it. -/
def GoReply (p : U32) (k : GoCall) (profile : U32) (payload : Bytes) (v : GoValue) : Prop :=
  match k with
  | .getProfile => ∃ g, ProfileReply profile payload g ∧ v = .profile g
  | .initialize _ | .rotate _ _ => ∃ (h : Handle) (rest : Bytes), payload = h.toList ++ rest ∧ v = .handle h
  | .destroy _ => v = .nothing
  | .update _ _ _ => ∃ (h parent : Handle) (rest : Bytes), payload = h.toList ++ parent.toList ++ rest ∧
      v = .updated h parent
  | .derive _ _ f _ _ =>
    if Bit f 23 then ∃ (h parent : Handle) (cdi : BArr 32) (size : U32) (cert rest : Bytes),
      payload = h.toList ++ parent.toList ++ cdi.toList ++ word size ++ cert ++ rest ∧
      cert.length = size.toNat ∧ v = .derived h parent cdi size cert
    else ∃ (h parent : Handle) (rest : Bytes), payload = h.toList ++ parent.toList ++ rest ∧
      v = .derived h parent (Vector.replicate 32 0) 0 []
  | .certifyKey _ _ _ _ =>
    ∃ (h : Handle) (x y : Bytes) (size : U32) (cert rest : Bytes), x.length = (goSizes p).key ∧ y.length = (goSizes p).key ∧
      (if p = goMldsa then payload = h.toList ++ x ++ word size ++ cert ++ rest ∧ y = List.replicate 2592 0
        else payload = h.toList ++ x ++ y ++ word size ++ cert ++ rest) ∧
      cert.length = size.toNat ∧ size.toNat ≤ (goSizes p).cert ∧ v = .key h x y cert
  | .sign _ _ _ _ =>
    if p = goMldsa then ∃ (h : Handle) (s rest : Bytes), s.length = 4627 ∧ payload = h.toList ++ s ++ rest ∧
      v = .signature h [] [] s
    else ∃ (h : Handle) (r s rest : Bytes), r.length = (goSizes p).digest ∧ s.length = (goSizes p).digest ∧
      payload = h.toList ++ r ++ s ++ rest ∧ v = .signature h r s []
  | .signRaw _ _ _ => ∃ (h : Handle) (s : Bytes) (pad : UInt8) (rest : Bytes), s.length = 4627 ∧
      payload = h.toList ++ s ++ [pad] ++ rest ∧ v = .signature h [] [] s

/-- `payload` announces a certificate that is larger than the profile allows. -/
def Oversized (p : U32) (k : GoCall) (payload : Bytes) : Prop :=
  match k with
  | .certifyKey _ _ _ _ => ∃ (front : Bytes) (size : U32) (rest : Bytes), payload = front ++ word size ++ rest ∧
      front.length = 16 + (if p = goMldsa then 1 else 2) * (goSizes p).key ∧ (goSizes p).cert < size.toNat
  | _ => False

/-- What is made of a response, where `Reads` says which bytes are which value and `Big` which are an
oversized one: a value; the status, if it is not zero; or what is wrong with the response. -/
inductive Received {α : Type} (Reads : U32 → Bytes → α → Prop) (Big : Bytes → Prop) :
    Bytes → Except ClErr α → Prop
  | value {profile : U32} {payload : Bytes} {v : α} : Reads profile payload v →
      Received Reads Big (goAnswer 0 profile payload) (.ok v)
  | status {s profile : U32} {payload : Bytes} : s ≠ 0 →
      Received Reads Big (goAnswer s profile payload) (.error (.status s))
  | magic {m : U32} {rest : Bytes} : m ≠ 0x44504552 → 8 ≤ rest.length →
      Received Reads Big (word m ++ rest) (.error .magic)
  | tooLarge {profile : U32} {payload : Bytes} : Big payload →
      Received Reads Big (goAnswer 0 profile payload) (.error .certTooLarge)
  | noHeader {resp : Bytes} : resp.length < 12 → Received Reads Big resp (.error .short)
  | short {profile : U32} {payload : Bytes} : (∀ v, ¬ Reads profile payload v) → ¬ Big payload →
      Received Reads Big (goAnswer 0 profile payload) (.error .short)

/-- The result `r` of a call, when the other end gives `a` for what is sent. -/
def Result (c : Client) (k : GoCall) (a : Except ClErr Bytes) (r : Except ClErr GoValue) : Prop :=
  match a with
  | .error e => r = .error e
  | .ok resp => Received (GoReply c.profile k) (Oversized c.profile k) resp r

/-- One piece of a certificate chain: its size, and 2048 bytes that begin with it. -/
def ChainReply (payload : Bytes) (v : U32 × BArr 2048) : Prop :=
  ∃ rest, payload = word v.1 ++ v.2.toList ++ rest

/-- What a client asks for the chain's bytes from `offset` on. -/
def chainRequest (c : Client) (offset : U32) : Bytes :=
  goMessage (if c.minor.toNat = 8 then 0x80 else 0x10) c.profile (word offset ++ word 2048)

/-- The other end gives the piece (or error) `r` for the chain's bytes from `offset` on. -/
def Piece {τ : Type} (c : Client) (t : Transport τ) (offset : U32) (x : τ) (r : Except ClErr (U32 × BArr 2048)) (x' : τ) :
    Prop :=
  match t (chainRequest c offset) x with
  | (.error e, y) => r = .error e ∧ x' = y
  | (.ok resp, y) => Received (fun _ => ChainReply) (fun _ => False) resp r ∧ x' = y

/-- How the chain is put together, from `offset` on: pieces of 2048 bytes, up to a smaller one or to the
status "invalid argument". -/
inductive Fetched {τ : Type} (c : Client) (t : Transport τ) : U32 → τ → Except ClErr Bytes → τ → Prop
  | last {offset x x' n b} : Piece c t offset x (.ok (n, b)) x' → n.toNat < 2048 →
      Fetched c t offset x (.ok (b.toList.take n.toNat)) x'
  | stop {offset x x'} : Piece c t offset x (.error (.status 3)) x' → Fetched c t offset x (.ok []) x'
  | more {offset x x' b got x''} : Piece c t offset x (.ok (2048, b)) x' →
      Fetched c t (offset + 2048) x' (.ok got) x'' → Fetched c t offset x (.ok (b.toList ++ got)) x''
  | late {offset x x' b e x''} : Piece c t offset x (.ok (2048, b)) x' →
      Fetched c t (offset + 2048) x' (.error e) x'' → Fetched c t offset x (.error e) x''
  | fails {offset x x' e} : Piece c t offset x (.error e) x' → e ≠ .status 3 → Fetched c t offset x (.error e) x'
  | crash {offset x x' n b} : Piece c t offset x (.ok (n, b)) x' → 2048 < n.toNat →
      Fetched c t offset x (.error .panic) x'

end Dpe

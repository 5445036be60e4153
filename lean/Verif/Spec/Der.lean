import Verif.Model.Base
/-
DER (X.690), independent of the certificate writer: lengths, integers, object identifiers, a
strict recogniser of well-formed byte strings, and trees of values.
-/
namespace Dpe

/-! ### Numbers -/

/-- The digits of `n` in base 256, most significant first, without leading zeros (none for 0).
The first argument bounds the number of digits. -/
def digitsTo : Nat → Nat → Bytes
  | 0, _ => []
  | k + 1, n => if n = 0 then [] else digitsTo k (n / 256) ++ [UInt8.ofNat n]

/-- The digits of `n` in base 256 without leading zeros. -/
def digits256 (n : Nat) : Bytes := digitsTo n n

/-- The number that a big-endian byte string stands for. -/
def beValue (bs : Bytes) : Nat := bs.foldl (fun a b => a * 256 + b.toNat) 0

/-- Definite length octets (X.690 10.1): one octet below 128, otherwise the number of digits and
the digits. -/
def derLen (n : Nat) : Bytes :=
  if n < 128 then [UInt8.ofNat n]
  else UInt8.ofNat (128 + (digits256 n).length) :: digits256 n

/-- The contents octets of the INTEGER `n ≥ 0` (X.690 8.3): the shortest two's-complement form. -/
def intBody (n : Nat) : Bytes :=
  match digits256 n with
  | [] => [0]
  | d :: ds => if d.toNat < 128 then d :: ds else 0 :: d :: ds

/-- The number that the contents octets of an INTEGER stand for (two's complement). -/
def intValue (bs : Bytes) : Int :=
  match bs with
  | [] => 0
  | b :: _ => if b.toNat < 128 then beValue bs else (beValue bs : Int) - 256 ^ bs.length

/-- The contents octets of an object identifier subidentifier (X.690 8.19.2): base 128, bit 8 set
on all but the last.  The first argument bounds the number of octets. -/
def arcTo : Nat → Nat → Bool → Bytes
  | 0, _, _ => []
  | k + 1, n, last =>
    (if n < 128 then [] else arcTo k (n / 128) false) ++
      [UInt8.ofNat (n % 128 + if last then 0 else 128)]

/-- The contents octets of an object identifier given by its arcs (X.690 8.19). -/
def oidBody : List Nat → Bytes
  | a :: b :: rest => ((40 * a + b) :: rest).flatMap fun n => arcTo 10 n true
  | _ => []

/-- A tagged value. -/
def tlv (tag : UInt8) (body : Bytes) : Bytes := tag :: (derLen body.length ++ body)

/-! ### Well-formed DER -/

/-- The tag says "constructed". -/
def constructed (tag : UInt8) : Bool := tag &&& 0x20 != 0

/-- The tag fits in one octet (tag numbers below 31). -/
def lowTag (tag : UInt8) : Bool := tag &&& 0x1F != 0x1F

mutual
/-- One well-formed value: one-octet tag, shortest definite length, and, when constructed, contents
that are themselves well formed. -/
inductive WellFormed : Bytes → Prop
  | prim {tag : UInt8} {body : Bytes} : lowTag tag = true → constructed tag = false →
      body.length < 4294967296 → WellFormed (tlv tag body)
  | node {tag : UInt8} {body : Bytes} : lowTag tag = true → constructed tag = true →
      body.length < 4294967296 → WellFormedAll body → WellFormed (tlv tag body)
/-- A sequence of well-formed values. -/
inductive WellFormedAll : Bytes → Prop
  | nil : WellFormedAll []
  | cons {a b : Bytes} : WellFormed a → WellFormedAll b → WellFormedAll (a ++ b)
end

/-- Read length octets, accepting only the shortest form of at most 4 digits. -/
def readLen : Bytes → Option (Nat × Bytes)
  | [] => none
  | b :: rest =>
    if b.toNat < 128 then some (b.toNat, rest)
    else
      let k := b.toNat - 128
      let ds := rest.take k
      if k = 0 ∨ 4 < k ∨ rest.length < k ∨ ds.headD 0 = 0 ∨ beValue ds < 128 then none
      else some (beValue ds, rest.drop k)

/-- Read one tag and length and split off the contents. -/
def readTlv : Bytes → Option (UInt8 × Bytes × Bytes)
  | [] => none
  | tag :: rest =>
    if lowTag tag = false then none
    else
      match readLen rest with
      | none => none
      | some (n, rest') => if rest'.length < n then none else some (tag, rest'.take n, rest'.drop n)

/-- A strict recogniser of a sequence of DER values.  `fuel` bounds the number of values. -/
def strictAll : Nat → Bytes → Bool
  | 0, bs => bs.isEmpty
  | _ + 1, [] => true
  | fuel + 1, b :: bs =>
    match readTlv (b :: bs) with
    | none => false
    | some (tag, body, rest) =>
      (if constructed tag then strictAll fuel body else true) && strictAll fuel rest

/-- A strict recogniser of a single DER value. -/
def strictDer (bs : Bytes) : Bool :=
  match readTlv bs with
  | some (tag, body, []) => if constructed tag then strictAll body.length body else true
  | _ => false

/-! ### Trees -/

/-- Values as trees.

* `prim`: a tag and its contents octets.
* `node`: a tag, some leading octets and parts.  Covers SEQUENCE and the like (no leading octets)
  as well as OCTET STRING and BIT STRING that hold encoded values.
* `list`: like `node`, but marked as a list of values that are meant to be equally long.
* `outer`: like `node`, but marked as one whose length is only known after it was written.
* `raw`: octets that were encoded elsewhere.

The marks make no difference to the DER encoding `Asn.der`. -/
inductive Asn
  | prim (tag : UInt8) (body : Bytes)
  | node (tag : UInt8) (lead : Bytes) (parts : List Asn)
  | list (tag : UInt8) (parts : List Asn)
  | outer (tag : UInt8) (parts : List Asn)
  | raw (bs : Bytes)

mutual
/-- The DER encoding of a tree. -/
def Asn.der : Asn → Bytes
  | .prim tag body => tlv tag body
  | .node tag lead parts => tlv tag (lead ++ Asn.ders parts)
  | .list tag parts => tlv tag (Asn.ders parts)
  | .outer tag parts => tlv tag (Asn.ders parts)
  | .raw bs => bs
/-- The encodings of several trees, one after the other. -/
def Asn.ders : List Asn → Bytes
  | [] => []
  | t :: ts => t.der ++ Asn.ders ts
end

/-- Length of a tagged value whose contents have length `n`. -/
def tlvLen (n : Nat) : Nat := 1 + (derLen n).length + n

mutual
/-- The length of the encoding as it can be foreseen from the tree if the parts of a `list` are all
taken to be as long as the first. -/
def Asn.foreseen : Asn → Nat
  | .prim _ body => tlvLen body.length
  | .node _ lead parts => tlvLen (lead.length + Asn.foreseens parts)
  | .list _ parts => tlvLen (parts.length * Asn.foreseenHead parts)
  | .outer _ parts => tlvLen (Asn.foreseens parts)
  | .raw bs => bs.length
@[inherit_doc Asn.foreseen] def Asn.foreseens : List Asn → Nat
  | [] => 0
  | t :: ts => t.foreseen + Asn.foreseens ts
@[inherit_doc Asn.foreseen] def Asn.foreseenHead : List Asn → Nat
  | [] => 0
  | t :: _ => t.foreseen
end

mutual
/-- The octets when all lengths are the foreseen ones, except that the length of an `outer` is that
of the octets actually inside. -/
def Asn.written : Asn → Bytes
  | .prim tag body => tlv tag body
  | .node tag lead parts =>
    tag :: (derLen (lead.length + Asn.foreseens parts) ++ (lead ++ Asn.writtens parts))
  | .list tag parts =>
    tag :: (derLen (parts.length * Asn.foreseenHead parts) ++ Asn.writtens parts)
  | .outer tag parts => tlv tag (Asn.writtens parts)
  | .raw bs => bs
@[inherit_doc Asn.written] def Asn.writtens : List Asn → Bytes
  | [] => []
  | t :: ts => t.written ++ Asn.writtens ts
end

mutual
/-- In every `list` the parts are together as long as if all were as long as the first. -/
def Asn.Even : Asn → Prop
  | .prim .. => True
  | .node _ _ parts => Asn.Evens parts
  | .list _ parts => Asn.Evens parts ∧
    (Asn.ders parts).length = parts.length * (parts.headD (.raw [])).der.length
  | .outer _ parts => Asn.Evens parts
  | .raw _ => True
@[inherit_doc Asn.Even] def Asn.Evens : List Asn → Prop
  | [] => True
  | t :: ts => t.Even ∧ Asn.Evens ts
end

mutual
/-- Every tag is a one-octet tag that is constructed exactly where there are parts without leading
octets, except for strings (`node` with a primitive tag), and everything `raw` is well formed. -/
def Asn.Proper : Asn → Prop
  | .prim tag _ => lowTag tag = true ∧ constructed tag = false
  | .node tag lead parts =>
    lowTag tag = true ∧ (constructed tag = true → lead = [] ∧ Asn.Propers parts)
  | .list tag parts => lowTag tag = true ∧ (constructed tag = true → Asn.Propers parts)
  | .outer tag parts => lowTag tag = true ∧ (constructed tag = true → Asn.Propers parts)
  | .raw bs => WellFormed bs
@[inherit_doc Asn.Proper] def Asn.Propers : List Asn → Prop
  | [] => True
  | t :: ts => t.Proper ∧ Asn.Propers ts
end

end Dpe

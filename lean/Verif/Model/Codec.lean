/-!
# Byte codecs

Models `bincode::serialize` / `bincode::deserialize` (bincode 1.3, default functions), which
`/repo/src/network.rs:392-398` wraps as `serialize` and `deserialize`:
integers are written with fixed width in little endian order, `bool` is one byte (0 or 1, everything else is an error),
arrays and structs are the concatenation of their elements without any prefix, `serde_repr` enums are
their integer representation (an unknown integer is an error), and bytes left over after a value are ignored.
-/

namespace Verif

/-- A byte string (`Vec<u8>` / `&[u8]`). -/
abbrev Bytes := List UInt8

/-- A fixed size Rust array `[T; n]`. -/
abbrev Arr (α : Type) (n : Nat) := Fin n → α

/-- The array with first element `x` (used to fill arrays element by element, e.g. by `/repo/src/network.rs:396-398`). -/
def Arr.cons {α : Type} {n : Nat} (x : α) (v : Arr α n) : Arr α (n + 1)
  | ⟨0, _⟩ => x
  | ⟨j + 1, h⟩ => v ⟨j, Nat.lt_of_succ_lt_succ h⟩

/-- Encoder and decoder of one Rust type; the decoder returns the unread rest, `none` is a bincode error.
Models `serialize`/`deserialize` of `/repo/src/network.rs:392-398` for one type. -/
structure Codec (α : Type) where
  enc : α → Bytes
  dec : Bytes → Option (α × Bytes)

namespace Codec

/-- `k` bytes of `n`, least significant first (bincode fixed width integer encoding,
used by `/repo/src/network.rs:392-394`). -/
def leEnc : Nat → Nat → Bytes
  | 0, _ => []
  | k + 1, n => UInt8.ofNat n :: leEnc k (n / 256)

/-- Value of a little endian byte string (bincode fixed width integer decoding,
used by `/repo/src/network.rs:396-398`). -/
def leVal : Bytes → Nat
  | [] => 0
  | b :: bs => b.toNat + 256 * leVal bs

/-- Splits off exactly `k` bytes; running out of input is a bincode error
(`/repo/src/network.rs:396-398`). -/
def splitN (k : Nat) (bs : Bytes) : Option (Bytes × Bytes) :=
  if k ≤ bs.length then some (bs.take k, bs.drop k) else none

/-- `u8` (bincode, `/repo/src/network.rs:392-398`). -/
def u8 : Codec UInt8 where
  enc x := leEnc 1 x.toNat
  dec bs := (splitN 1 bs).map fun p => (UInt8.ofNat (leVal p.1), p.2)

/-- `u16` (bincode, `/repo/src/network.rs:392-398`). -/
def u16 : Codec UInt16 where
  enc x := leEnc 2 x.toNat
  dec bs := (splitN 2 bs).map fun p => (UInt16.ofNat (leVal p.1), p.2)

/-- `u32` (bincode, `/repo/src/network.rs:392-398`). -/
def u32 : Codec UInt32 where
  enc x := leEnc 4 x.toNat
  dec bs := (splitN 4 bs).map fun p => (UInt32.ofNat (leVal p.1), p.2)

/-- `u64` (bincode, `/repo/src/network.rs:392-398`). -/
def u64 : Codec UInt64 where
  enc x := leEnc 8 x.toNat
  dec bs := (splitN 8 bs).map fun p => (UInt64.ofNat (leVal p.1), p.2)

/-- The unit struct: no bytes. Used for requests which are only a header
(`/repo/src/robot/service_types.rs:204-208,544`, `/repo/src/gripper/types.rs:141-142`). -/
def unit : Codec Unit where
  enc _ := []
  dec bs := some ((), bs)

/-- Two fields one after the other (bincode struct, `/repo/src/network.rs:392-398`). -/
def seq {α β : Type} (a : Codec α) (b : Codec β) : Codec (α × β) where
  enc x := a.enc x.1 ++ b.enc x.2
  dec bs := (a.dec bs).bind fun p => (b.dec p.2).map fun q => ((p.1, q.1), q.2)

/-- A struct seen as the tuple of its fields (bincode struct, `/repo/src/network.rs:392-398`). -/
def iso {α β : Type} (a : Codec α) (to : β → α) (of : α → β) : Codec β where
  enc x := a.enc (to x)
  dec bs := (a.dec bs).map fun p => (of p.1, p.2)

/-- An enum encoded by an integer (`serde_repr`): decoding fails on unknown integers; also `bool`
(bincode, `/repo/src/network.rs:392-398`). -/
def enum {α β : Type} (a : Codec α) (to : β → α) (of : α → Option β) : Codec β where
  enc x := a.enc (to x)
  dec bs := (a.dec bs).bind fun p => (of p.1).map fun b => (b, p.2)

/-- `bool` (bincode, `/repo/src/network.rs:392-398`). -/
def bool : Codec Bool :=
  enum u8 (fun b => if b then 1 else 0) (fun x => if x = 0 then some false else if x = 1 then some true else none)

/-- `[T; n]` (bincode array: no length prefix, `/repo/src/network.rs:392-398`). -/
def arr {α : Type} (a : Codec α) : (n : Nat) → Codec (Arr α n)
  | 0 => { enc := fun _ => [], dec := fun bs => some (fun i => i.elim0, bs) }
  | n + 1 =>
    { enc := fun v => a.enc (v 0) ++ (arr a n).enc (fun i => v i.succ)
      dec := fun bs => (a.dec bs).bind fun p =>
        ((arr a n).dec p.2).map fun q => (Arr.cons p.1 q.1, q.2) }

end Codec
end Verif

import Verif.Model.Codec
/-! Lemmas: every codec built from the combinators is lawful. -/
namespace Verif
namespace Codec

/-- A codec is lawful with size `n`: encodings have length `n`; decoding an encoding followed by anything gives the value back
and the rest; only encodings are accepted. -/
structure Lawful {α : Type} (c : Codec α) (n : Nat) : Prop where
  len : ∀ a, (c.enc a).length = n
  rt : ∀ a rest, c.dec (c.enc a ++ rest) = some (a, rest)
  sound : ∀ bs a rest, c.dec bs = some (a, rest) → bs = c.enc a ++ rest

theorem leEnc_length (k n : Nat) : (leEnc k n).length = k := by
  induction k generalizing n with
  | zero => rfl
  | succ k ih => simp [leEnc, ih]

theorem leVal_leEnc (k n : Nat) : leVal (leEnc k n) = n % 256 ^ k := by
  induction k generalizing n with
  | zero => simp [leEnc, leVal, Nat.mod_one]
  | succ k ih =>
    simp only [leEnc, leVal, ih, UInt8.toNat_ofNat', Nat.pow_succ]
    have h := Nat.mod_mul (x := n) (a := 256) (b := 256 ^ k)
    rw [Nat.mul_comm (256 ^ k) 256, h]

theorem leVal_lt (bs : Bytes) : leVal bs < 256 ^ bs.length := by
  induction bs with
  | nil => simp [leVal]
  | cons b bs ih =>
    have := b.toNat_lt
    simp only [leVal, List.length_cons, Nat.pow_succ]
    omega

theorem leEnc_leVal (bs : Bytes) : leEnc bs.length (leVal bs) = bs := by
  induction bs with
  | nil => rfl
  | cons b bs ih =>
    have hb := b.toNat_lt
    simp only [List.length_cons, leEnc, leVal]
    have h1 : (b.toNat + 256 * leVal bs) / 256 = leVal bs := by omega
    rw [h1, ih]
    congr 1
    apply UInt8.toNat.inj
    simp only [UInt8.toNat_ofNat']
    omega

theorem splitN_append (a rest : Bytes) (k : Nat) (h : a.length = k) :
    splitN k (a ++ rest) = some (a, rest) := by
  subst h
  simp [splitN]

theorem splitN_some {k : Nat} {bs a rest : Bytes} (h : splitN k bs = some (a, rest)) :
    bs = a ++ rest ∧ a.length = k := by
  unfold splitN at h
  split at h
  · simp only [Option.some.injEq, Prod.mk.injEq] at h
    obtain ⟨rfl, rfl⟩ := h
    refine ⟨(List.take_append_drop k bs).symm, ?_⟩
    simp; omega
  · simp at h

theorem u8_lawful : Lawful u8 1 where
  len a := leEnc_length 1 _
  rt a rest := by
    simp only [u8, splitN_append _ _ _ (leEnc_length 1 _), Option.map_some, leVal_leEnc]
    have h : UInt8.ofNat (a.toNat % 256 ^ 1) = a := by
      apply UInt8.toNat.inj
      have := a.toNat_lt
      simp only [UInt8.toNat_ofNat']; omega
    rw [h]
  sound bs a rest h := by
    simp only [u8, Option.map_eq_some_iff, Prod.mk.injEq] at h
    obtain ⟨⟨p, q⟩, hp, rfl, rfl⟩ := h
    obtain ⟨rfl, hl⟩ := splitN_some hp
    have := leVal_lt p
    rw [hl] at this
    simp only [u8, UInt8.toNat_ofNat']
    rw [Nat.mod_eq_of_lt (by omega), ← hl, leEnc_leVal]

theorem u16_lawful : Lawful u16 2 where
  len a := leEnc_length 2 _
  rt a rest := by
    simp only [u16, splitN_append _ _ _ (leEnc_length 2 _), Option.map_some, leVal_leEnc]
    have h : UInt16.ofNat (a.toNat % 256 ^ 2) = a := by
      apply UInt16.toNat.inj
      have := a.toNat_lt
      simp only [UInt16.toNat_ofNat']; omega
    rw [h]
  sound bs a rest h := by
    simp only [u16, Option.map_eq_some_iff, Prod.mk.injEq] at h
    obtain ⟨⟨p, q⟩, hp, rfl, rfl⟩ := h
    obtain ⟨rfl, hl⟩ := splitN_some hp
    have := leVal_lt p
    rw [hl] at this
    simp only [u16, UInt16.toNat_ofNat']
    rw [Nat.mod_eq_of_lt (by omega), ← hl, leEnc_leVal]

theorem u32_lawful : Lawful u32 4 where
  len a := leEnc_length 4 _
  rt a rest := by
    simp only [u32, splitN_append _ _ _ (leEnc_length 4 _), Option.map_some, leVal_leEnc]
    have h : UInt32.ofNat (a.toNat % 256 ^ 4) = a := by
      apply UInt32.toNat.inj
      have := a.toNat_lt
      simp only [UInt32.toNat_ofNat']; omega
    rw [h]
  sound bs a rest h := by
    simp only [u32, Option.map_eq_some_iff, Prod.mk.injEq] at h
    obtain ⟨⟨p, q⟩, hp, rfl, rfl⟩ := h
    obtain ⟨rfl, hl⟩ := splitN_some hp
    have := leVal_lt p
    rw [hl] at this
    simp only [u32, UInt32.toNat_ofNat']
    rw [Nat.mod_eq_of_lt (by omega), ← hl, leEnc_leVal]

theorem u64_lawful : Lawful u64 8 where
  len a := leEnc_length 8 _
  rt a rest := by
    simp only [u64, splitN_append _ _ _ (leEnc_length 8 _), Option.map_some, leVal_leEnc]
    have h : UInt64.ofNat (a.toNat % 256 ^ 8) = a := by
      apply UInt64.toNat.inj
      have := a.toNat_lt
      simp only [UInt64.toNat_ofNat']; omega
    rw [h]
  sound bs a rest h := by
    simp only [u64, Option.map_eq_some_iff, Prod.mk.injEq] at h
    obtain ⟨⟨p, q⟩, hp, rfl, rfl⟩ := h
    obtain ⟨rfl, hl⟩ := splitN_some hp
    have := leVal_lt p
    rw [hl] at this
    simp only [u64, UInt64.toNat_ofNat']
    rw [Nat.mod_eq_of_lt (by omega), ← hl, leEnc_leVal]

theorem unit_lawful : Lawful unit 0 where
  len _ := rfl
  rt _ _ := rfl
  sound bs a rest h := by
    simp only [unit, Option.some.injEq, Prod.mk.injEq] at h
    simp [unit, h.2]

theorem seq_lawful {α β : Type} {a : Codec α} {b : Codec β} {m n : Nat}
    (ha : Lawful a m) (hb : Lawful b n) : Lawful (seq a b) (m + n) where
  len x := by simp [seq, ha.len, hb.len]
  rt x rest := by simp [seq, List.append_assoc, ha.rt, hb.rt]
  sound bs x rest h := by
    simp only [seq, Option.bind_eq_some_iff, Option.map_eq_some_iff, Prod.mk.injEq] at h
    obtain ⟨p, hp, q, hq, rfl, rfl⟩ := h
    have h1 := ha.sound _ _ _ hp
    have h2 := hb.sound _ _ _ hq
    simp [seq, h1, h2]

theorem iso_lawful {α β : Type} {a : Codec α} {to : β → α} {of : α → β} {n : Nat}
    (ha : Lawful a n) (h1 : ∀ x, of (to x) = x) (h2 : ∀ x, to (of x) = x) :
    Lawful (iso a to of) n where
  len x := ha.len _
  rt x rest := by simp [iso, ha.rt, h1]
  sound bs x rest h := by
    simp only [iso, Option.map_eq_some_iff, Prod.mk.injEq] at h
    obtain ⟨p, hp, rfl, rfl⟩ := h
    simp only [iso, h2]
    exact ha.sound _ _ _ hp

theorem enum_lawful {α β : Type} {a : Codec α} {to : β → α} {of : α → Option β} {n : Nat}
    (ha : Lawful a n) (h1 : ∀ x, of (to x) = some x) (h2 : ∀ x y, of x = some y → to y = x) :
    Lawful (enum a to of) n where
  len x := ha.len _
  rt x rest := by simp [enum, ha.rt, h1]
  sound bs x rest h := by
    simp only [enum, Option.bind_eq_some_iff, Option.map_eq_some_iff, Prod.mk.injEq] at h
    obtain ⟨p, hp, y, hy, rfl, rfl⟩ := h
    simp only [enum, h2 _ _ hy]
    exact ha.sound _ _ _ hp

theorem bool_lawful : Lawful bool 1 := by
  apply enum_lawful u8_lawful
  · intro x; cases x <;> simp
  · intro x y h
    split at h
    · simp at h; subst h; simp_all
    · split at h
      · simp at h; subst h; simp_all
      · simp at h

theorem arr_lawful {α : Type} {a : Codec α} {m : Nat} (ha : Lawful a m) (n : Nat) :
    Lawful (arr a n) (n * m) := by
  induction n with
  | zero =>
    constructor
    · intro v; simp [arr]
    · intro v rest
      simp only [arr, List.nil_append, Option.some.injEq, Prod.mk.injEq, and_true]
      funext i; exact i.elim0
    · intro bs v rest h
      simp only [arr, Option.some.injEq, Prod.mk.injEq] at h
      simp [arr, h.2]
  | succ n ih =>
    constructor
    · intro v; simp [arr, ha.len, ih.len, Nat.succ_mul, Nat.add_comm]
    · intro v rest
      simp only [arr, List.append_assoc, ha.rt, ih.rt, Option.bind_some, Option.map_some,
        Option.some.injEq, Prod.mk.injEq, and_true]
      funext i
      refine Fin.cases ?_ (fun j => ?_) i <;> rfl
    · intro bs v rest h
      simp only [arr, Option.bind_eq_some_iff, Option.map_eq_some_iff, Prod.mk.injEq] at h
      obtain ⟨p, hp, q, hq, rfl, rfl⟩ := h
      have h1 := ha.sound _ _ _ hp
      have h2 := ih.sound _ _ _ hq
      simp [arr, h1, h2]
      rfl

/-! Every value is encoded in the same number of bytes. This holds also for doubles whose bit patterns do not round trip. -/

/-- Every encoding has the length `n`. -/
def Sized {α : Type} (c : Codec α) (n : Nat) : Prop := ∀ a, (c.enc a).length = n

theorem seq_sized {α β : Type} {a : Codec α} {b : Codec β} {m n : Nat} (ha : Sized a m) (hb : Sized b n) : Sized (seq a b) (m + n) :=
  fun x => by simp [seq, ha _, hb _]

theorem iso_sized {α β : Type} {a : Codec α} {to : β → α} {of : α → β} {n : Nat} (ha : Sized a n) : Sized (iso a to of) n :=
  fun _ => ha _

theorem arr_sized {α : Type} {a : Codec α} {m : Nat} (ha : Sized a m) (n : Nat) : Sized (arr a n) (n * m) := by
  induction n with
  | zero => intro v; simp [arr]
  | succ n ih => intro v; simp [arr, ha _, ih _, Nat.succ_mul, Nat.add_comm]

end Codec
end Verif

import Verif.Spec.Bytes
import Verif.Lemmas.Basic
import Verif.Lemmas.Lists

/-! Lemmas on packing and unpacking. -/

namespace Cfd
open Spec

@[simp] theorem length_leBytes (k n : Nat) : (leBytes k n).length = k := by
  induction k generalizing n with
  | zero => rfl
  | succ k ih => simp [leBytes, ih]

@[simp] theorem length_natBytes (o : Order) (k n : Nat) : (natBytes o k n).length = k := by
  cases o <;> simp [natBytes]

theorem leNat_leBytes (k n : Nat) : leNat (leBytes k n) = n % 256 ^ k := by
  induction k generalizing n with
  | zero => simp [leBytes, leNat, Nat.mod_one]
  | succ k ih =>
    simp only [leBytes, leNat, ih, UInt8.toNat_ofNat']
    rw [show (256 : Nat) ^ (k + 1) = 256 * 256 ^ k by rw [Nat.pow_succ, Nat.mul_comm], Nat.mod_mul]
    simp

theorem leNat_lt (b : Bytes) : leNat b < 256 ^ b.length := by
  induction b with
  | nil => simp [leNat]
  | cons x t ih =>
    simp only [leNat, List.length_cons, Nat.pow_succ]
    have := x.toNat_lt
    omega

theorem leBytes_leNat (b : Bytes) : leBytes b.length (leNat b) = b := by
  induction b with
  | nil => rfl
  | cons x t ih =>
    have := x.toNat_lt
    simp only [leNat, List.length_cons, leBytes]
    have h1 : (x.toNat + 256 * leNat t) % 256 = x.toNat := by omega
    have h2 : (x.toNat + 256 * leNat t) / 256 = leNat t := by omega
    rw [h1, h2, ih]
    simp

theorem bytesNat_natBytes (o : Order) (k n : Nat) : bytesNat o (natBytes o k n) = n % 256 ^ k := by
  cases o <;> simp [bytesNat, natBytes, leNat_leBytes]

theorem bytesNat_lt (o : Order) (b : Bytes) : bytesNat o b < 256 ^ b.length := by
  cases o
  · exact leNat_lt b
  · have := leNat_lt b.reverse
    simpa [bytesNat] using this

theorem natBytes_bytesNat (o : Order) (b : Bytes) : natBytes o b.length (bytesNat o b) = b := by
  cases o
  · exact leBytes_leNat b
  · have := leBytes_leNat b.reverse
    simp only [List.length_reverse] at this
    simp [bytesNat, natBytes, this]

theorem packInt_ok_iff {o : Order} {k : Nat} {n : Int} {b : Bytes} :
    packInt o k n = .ok b ↔ FitsInt k n ∧ b = natBytes o k (n % (2 ^ (8 * k) : Int)).toNat := by
  unfold packInt FitsInt
  split
  · rename_i h
    simp [h, eq_comm]
  · rename_i h
    simp [h]

theorem unpack_natBytes (o : Order) (k : Nat) (hk : 0 < k) (n : Int) (h : FitsInt k n) :
    unpackInt o (natBytes o k (n % (2 ^ (8 * k) : Int)).toNat) = n := by
  unfold unpackInt
  simp only [length_natBytes, bytesNat_natBytes]
  have e : (256 : Nat) ^ k = 2 ^ (8 * k) := by
    rw [show (256 : Nat) = 2 ^ 8 by decide, ← Nat.pow_mul]
  rw [e]
  have e2 : (2 : Nat) ^ (8 * k) = 2 * 2 ^ (8 * k - 1) := by
    rw [show 8 * k = (8 * k - 1) + 1 by omega, Nat.pow_succ]; simp; omega
  obtain ⟨h1, h2⟩ := h
  have c1 : ((2 : Int) ^ (8 * k - 1)) = ((2 ^ (8 * k - 1) : Nat) : Int) := by simp
  have c2 : ((2 : Int) ^ (8 * k)) = ((2 ^ (8 * k) : Nat) : Int) := by simp
  rw [c1] at h1 h2
  rw [c2]
  rw [e2]
  generalize (2 : Nat) ^ (8 * k - 1) = P at *
  have hP : 0 < P := by omega
  by_cases hn : 0 ≤ n
  · have : n % ((2 * P : Nat) : Int) = n := Int.emod_eq_of_lt hn (by omega)
    rw [this, Nat.mod_eq_of_lt (by omega), if_pos (by omega)]
    omega
  · have : n % ((2 * P : Nat) : Int) = n + ((2 * P : Nat) : Int) := by
      rw [← Int.add_emod_right]
      exact Int.emod_eq_of_lt (by omega) (by omega)
    rw [this, Nat.mod_eq_of_lt (by omega), if_neg (by omega)]
    omega

theorem unpack_packInt {o : Order} {k : Nat} {n : Int} {b : Bytes} (hk : 0 < k)
    (h : packInt o k n = .ok b) : unpackInt o b = n ∧ b.length = k := by
  obtain ⟨h1, rfl⟩ := packInt_ok_iff.1 h
  exact ⟨unpack_natBytes o k hk n h1, by simp⟩

theorem unpackInt_fits (o : Order) (b : Bytes) (hb : 0 < b.length) : FitsInt b.length (unpackInt o b) := by
  unfold FitsInt unpackInt
  have h := bytesNat_lt o b
  have e : (256 : Nat) ^ b.length = 2 ^ (8 * b.length) := by
    rw [show (256 : Nat) = 2 ^ 8 by decide, ← Nat.pow_mul]
  rw [e] at h
  have e2 : (2 : Nat) ^ (8 * b.length) = 2 * 2 ^ (8 * b.length - 1) := by
    rw [show 8 * b.length = (8 * b.length - 1) + 1 by omega, Nat.pow_succ]; simp; omega
  have c1 : ((2 : Int) ^ (8 * b.length - 1)) = ((2 ^ (8 * b.length - 1) : Nat) : Int) := by simp
  have c2 : ((2 : Int) ^ (8 * b.length)) = ((2 ^ (8 * b.length) : Nat) : Int) := by simp
  rw [c1, c2]
  rw [e2] at h ⊢
  generalize (2 : Nat) ^ (8 * b.length - 1) = P at *
  simp only
  split <;> omega

theorem pack_unpackInt (o : Order) (b : Bytes) (hb : 0 < b.length) :
    packInt o b.length (unpackInt o b) = .ok b := by
  rw [packInt_ok_iff]
  refine ⟨unpackInt_fits o b hb, ?_⟩
  have h := bytesNat_lt o b
  have e : (256 : Nat) ^ b.length = 2 ^ (8 * b.length) := by
    rw [show (256 : Nat) = 2 ^ 8 by decide, ← Nat.pow_mul]
  rw [e] at h
  have c2 : ((2 : Int) ^ (8 * b.length)) = ((2 ^ (8 * b.length) : Nat) : Int) := by simp
  have : (unpackInt o b % (2 ^ (8 * b.length) : Int)).toNat = bytesNat o b := by
    unfold unpackInt
    rw [c2]
    generalize (2 : Nat) ^ (8 * b.length) = Q at *
    simp only
    split
    · rw [Int.emod_eq_of_lt (by omega) (by omega)]; omega
    · rw [Int.sub_emod_right, Int.emod_eq_of_lt (by omega) (by omega)]; omega
  rw [this, natBytes_bytesNat]

theorem unpackF64_natBytes (o : Order) (x : F64) : unpackF64 o (natBytes o 8 x.toNat) = x := by
  unfold unpackF64
  rw [bytesNat_natBytes, Nat.mod_eq_of_lt]
  · simp
  · have := x.toNat_lt; simpa using this

/-! ## Lists of equal items -/

@[simp] theorem length_intsBytes (o : Order) (k : Nat) (l : List Int) :
    (intsBytes o k l).length = k * l.length := by
  unfold intsBytes
  induction l with
  | nil => simp
  | cons x t ih => simp only [List.flatMap_cons, List.length_append, length_natBytes, ih,
      List.length_cons]; rw [Nat.mul_add]; omega

@[simp] theorem length_f64sBytes (o : Order) (l : List F64) : (f64sBytes o l).length = 8 * l.length := by
  unfold f64sBytes
  induction l with
  | nil => simp
  | cons x t ih => simp only [List.flatMap_cons, List.length_append, length_natBytes, ih,
      List.length_cons]; omega

theorem groups_flatMap {α : Type} (k : Nat) (f : α → Bytes) (hf : ∀ x, (f x).length = k) (l : List α)
    (rest : Bytes) : groups k l.length (l.flatMap f ++ rest) = l.map f := by
  induction l with
  | nil => rfl
  | cons x t ih =>
    simp only [List.length_cons, groups, List.flatMap_cons, List.append_assoc, List.map_cons]
    rw [List.take_append_of_le_length (by rw [hf]),
      List.drop_append_of_le_length (by rw [hf])]
    rw [List.take_of_length_le (by rw [hf]),
      List.drop_of_length_le (by rw [hf]), List.nil_append, ih]

theorem unpackInts_intsBytes (o : Order) (k : Nat) (hk : 0 < k) (l : List Int)
    (h : ∀ n ∈ l, FitsInt k n) (rest : Bytes) :
    unpackInts o k l.length (intsBytes o k l ++ rest) = l := by
  unfold unpackInts intsBytes
  rw [groups_flatMap k _ (by simp), List.map_map]
  conv => rhs; rw [← List.map_id l]
  apply List.map_congr_left
  intro n hn
  exact unpack_natBytes o k hk n (h n hn)

theorem unpackF64s_f64sBytes (o : Order) (l : List F64) (rest : Bytes) :
    unpackF64s o l.length (f64sBytes o l ++ rest) = l := by
  unfold unpackF64s f64sBytes
  rw [groups_flatMap 8 _ (by simp), List.map_map]
  conv => rhs; rw [← List.map_id l]
  apply List.map_congr_left
  intro n _
  exact unpackF64_natBytes o n

theorem length_pack {o : Order} {x : Item} {b : Bytes} (h : x.pack o = .ok b) : b.length = x.size := by
  cases x with
  | c l =>
    match l, h with
    | [y], h => simp only [Item.pack, Except.ok.injEq] at h; subst h; rfl
  | i n => simp only [Item.pack] at h; exact (unpack_packInt (by decide) h).2
  | q n => simp only [Item.pack] at h; exact (unpack_packInt (by decide) h).2
  | d x => simp only [Item.pack, Except.ok.injEq] at h; subst h; simp [Item.size]

/-- Packing with no padding. -/
def packAll (o : Order) : List Item → Py Bytes
  | [] => .ok []
  | x :: t => do
      let b ← x.pack o
      let r ← packAll o t
      return b ++ r

/-- All positions are aligned: no padding even in native mode. -/
def aligned (pos : Nat) : List Item → Prop
  | [] => True
  | x :: t => pos % x.size = 0 ∧ aligned (pos + x.size) t

theorem Item.size_pos (x : Item) : 0 < x.size := by cases x <;> simp [Item.size]

theorem packFrom_aligned (native : Bool) (o : Order) (pos : Nat) (l : List Item)
    (h : native = true → aligned pos l) : packFrom native o pos l = packAll o l := by
  induction l generalizing pos with
  | nil => rfl
  | cons x t ih =>
    have hp : padding native pos x.size = 0 := by
      unfold padding
      cases native with
      | false => simp
      | true => have := (h rfl).1; simp [this]
    unfold packFrom packAll
    simp only [hp]
    rw [ih]
    · simp
    · intro hn; exact (h hn).2

theorem aligned_append (pos : Nat) (a b : List Item) :
    aligned pos (a ++ b) ↔ aligned pos a ∧ aligned (pos + (a.map Item.size).sum) b := by
  induction a generalizing pos with
  | nil => simp [aligned]
  | cons x t ih => simp [aligned, ih, and_assoc, Nat.add_assoc]

theorem aligned_const (pos s : Nat) (l : List Item) (hs : ∀ x ∈ l, x.size = s) (h : pos % s = 0) :
    aligned pos l := by
  induction l generalizing pos with
  | nil => trivial
  | cons x t ih =>
    have hx := hs x (by simp)
    refine ⟨by rw [hx]; exact h, ih _ (fun y hy => hs y (by simp [hy])) ?_⟩
    rw [hx]; simp [h]

theorem packAll_append (o : Order) (a b : List Item) :
    packAll o (a ++ b) = (do let x ← packAll o a; let y ← packAll o b; return x ++ y) := by
  induction a with
  | nil =>
    simp only [List.nil_append, packAll, Except_bind_ok]
    cases packAll o b <;> rfl
  | cons x t ih =>
    simp only [List.cons_append, packAll, ih]
    cases hx : x.pack o with
    | error e => rfl
    | ok y =>
      cases packAll o t with
      | error e => rfl
      | ok z =>
        cases packAll o b with
        | error e => rfl
        | ok u => simp [bind, Except.bind, pure, Except.pure]

theorem packAll_ints (o : Order) (l : List Int) (b : Bytes) :
    packAll o (l.map .i) = .ok b ↔ (∀ n ∈ l, FitsInt 4 n) ∧ b = intsBytes o 4 l := by
  induction l generalizing b with
  | nil => simp [packAll, intsBytes, eq_comm]
  | cons n t ih =>
    simp only [List.map_cons, packAll, bind_eq_ok, Item.pack, packInt_ok_iff, ih, Except_pure,
      Except.ok.injEq]
    constructor
    · rintro ⟨x, ⟨h1, rfl⟩, y, ⟨h2, rfl⟩, rfl⟩
      exact ⟨by simp [h1]; exact h2, rfl⟩
    · rintro ⟨h1, rfl⟩
      exact ⟨_, ⟨h1 n (by simp), rfl⟩, _, ⟨fun m hm => h1 m (by simp [hm]), rfl⟩, rfl⟩

theorem packAll_longs (o : Order) (l : List Int) (b : Bytes) :
    packAll o (l.map .q) = .ok b ↔ (∀ n ∈ l, FitsInt 8 n) ∧ b = intsBytes o 8 l := by
  induction l generalizing b with
  | nil => simp [packAll, intsBytes, eq_comm]
  | cons n t ih =>
    simp only [List.map_cons, packAll, bind_eq_ok, Item.pack, packInt_ok_iff, ih, Except_pure,
      Except.ok.injEq]
    constructor
    · rintro ⟨x, ⟨h1, rfl⟩, y, ⟨h2, rfl⟩, rfl⟩
      exact ⟨by simp [h1]; exact h2, rfl⟩
    · rintro ⟨h1, rfl⟩
      exact ⟨_, ⟨h1 n (by simp), rfl⟩, _, ⟨fun m hm => h1 m (by simp [hm]), rfl⟩, rfl⟩

theorem packAll_f64s (o : Order) (l : List F64) : packAll o (l.map .d) = .ok (f64sBytes o l) := by
  induction l with
  | nil => rfl
  | cons n t ih =>
    simp only [List.map_cons, packAll, ih, Item.pack, Except_bind_ok, Except_pure]
    rfl

end Cfd

/-
Base.lean - the small piece of C semantics every model file uses.

Undefined behaviour is a *distinct outcome*: a modelled C function that could run into it returns in
`C α = Except Fault α`, and each way of going wrong is its own `Fault`.
-/

namespace Mbus

/-- `unsigned char` (8 bit). -/
abbrev Byte := UInt8

/-- The undefined behaviours (and the fuel marker for loops) that the model can exhibit. -/
inductive Fault where
  /-- read at index `i` of an array / buffer of `n` elements, `i ≥ n` (or `i < 0`, reported as `i = n`) -/
  | oobRead (n i : Nat)
  /-- write at index `i` of an array / buffer of `n` elements, `i ≥ n` -/
  | oobWrite (n i : Nat)
  /-- signed integer overflow -/
  | overflow
  /-- shift by an amount that is not less than the width, or a left shift that loses the sign -/
  | shift
  /-- read through a pointer to a freed object -/
  | useAfterFree
  /-- `free` of an already freed object -/
  | doubleFree
  /-- NULL dereference -/
  | null
  /-- not a C behaviour: the model's loop fuel ran out -/
  | outOfFuel
  deriving DecidableEq, Repr

/-- Result of a C computation: a value or undefined behaviour. -/
abbrev C (α : Type) := Except Fault α

deriving instance DecidableEq for Except

/-- A C array `unsigned char a[n]`. -/
structure Buf (n : Nat) where
  bytes : List Byte
  size_eq : bytes.length = n
  deriving DecidableEq

instance {n : Nat} : Repr (Buf n) := ⟨fun b k => reprPrec b.bytes k⟩

/-- Zero-filled array (`memset(.., 0, ..)` / `calloc`). -/
def Buf.zero (n : Nat) : Buf n := ⟨List.replicate n 0, by simp⟩

/-- `a[i]` as an rvalue, for a caller-supplied region of `l.length` bytes. -/
def rd (l : List Byte) (i : Nat) : C Byte :=
  match l[i]? with
  | some b => .ok b
  | none => .error (.oobRead l.length i)

/-- `a[i] = v`, for a caller-supplied region of `l.length` bytes. -/
def wr (l : List Byte) (i : Nat) (v : Byte) : C (List Byte) :=
  if i < l.length then .ok (l.set i v) else .error (.oobWrite l.length i)

/-- `a[i]` as an rvalue, for a fixed-size array. -/
def Buf.rd {n : Nat} (b : Buf n) (i : Nat) : C Byte := Mbus.rd b.bytes i

/-- `a[i] = v`, for a fixed-size array. -/
def Buf.wr {n : Nat} (b : Buf n) (i : Nat) (v : Byte) : C (Buf n) :=
  if i < n then .ok ⟨b.bytes.set i v, by simp [b.size_eq]⟩ else .error (.oobWrite n i)

/-- `for (i = start; i < start + count; i++) s = body(i, s);` -/
def forN {σ : Type} : (count : Nat) → (start : Nat) → σ → (Nat → σ → C σ) → C σ
  | 0, _, s, _ => .ok s
  | n + 1, i, s, f => do
      let s' ← f i s
      forN n (i + 1) s' f

/-- `INT_MIN ≤ z ≤ INT_MAX` (32 bit `int`). -/
def isInt32 (z : Int) : Bool := decide (-2147483648 ≤ z) && decide (z ≤ 2147483647)

/-- `LONG_MIN ≤ z ≤ LONG_MAX` (64 bit `long`, `long long`). -/
def isInt64 (z : Int) : Bool := decide (-9223372036854775808 ≤ z) && decide (z ≤ 9223372036854775807)

/-- Result of an `int` operation: the mathematical value, or overflow. -/
def int32 (z : Int) : C Int := if isInt32 z then .ok z else .error .overflow

/-- Result of a `long`/`long long` operation: the mathematical value, or overflow. -/
def int64 (z : Int) : C Int := if isInt64 z then .ok z else .error .overflow

/-! ### basic facts used everywhere -/

@[simp] theorem ok_bind {α β : Type} (a : α) (f : α → C β) : (Except.ok a : C α) >>= f = f a := rfl
@[simp] theorem error_bind {α β : Type} (e : Fault) (f : α → C β) :
    (Except.error e : C α) >>= f = .error e := rfl
@[simp] theorem pure_eq_ok {α : Type} (a : α) : (pure a : C α) = .ok a := rfl

theorem bind_eq_ok {α β : Type} {x : C α} {f : α → C β} {b : β} :
    x >>= f = .ok b ↔ ∃ a, x = .ok a ∧ f a = .ok b := by
  cases x <;> simp

theorem rd_ok {l : List Byte} {i : Nat} (h : i < l.length) : rd l i = .ok l[i] := by
  simp [rd, h]

theorem rd_eq_ok {l : List Byte} {i : Nat} {b : Byte} : rd l i = .ok b ↔ l[i]? = some b := by
  unfold rd; cases l[i]? <;> simp

theorem wr_ok {l : List Byte} {i : Nat} {v : Byte} (h : i < l.length) : wr l i v = .ok (l.set i v) := by
  simp [wr, h]

@[simp] theorem Buf.length_bytes {n : Nat} (b : Buf n) : b.bytes.length = n := b.size_eq

theorem Buf.ext {n : Nat} {a b : Buf n} (h : a.bytes = b.bytes) : a = b := by
  cases a; cases b; simp_all

/-- Lift a statement over all 256 byte values to `UInt8`. -/
theorem forall_byte {P : Byte → Prop} (h : ∀ n : Fin 256, P (UInt8.ofNat n.val)) : ∀ b, P b := by
  intro b
  have := h ⟨b.toNat, b.toNat_lt⟩
  simpa using this

end Mbus

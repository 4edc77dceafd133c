/-!
# Results with an explicit panic, and the build profile

Rust functions that can panic are modelled as functions into `Res`.
-/
namespace Uecho

/-- The outcome of running a piece of Rust code: a value, or a panic (the thread unwinds).
Not from the repository: it models Rust's panic semantics (index out of bounds, arithmetic
overflow with overflow checks, `unwrap` of `None`/`Err`). -/
inductive Res (α : Type) where
  | ok (a : α)
  | panic
deriving DecidableEq, Repr

namespace Res

/-- Sequencing: a panic aborts the rest. -/
@[inline] def bind {α β : Type} : Res α → (α → Res β) → Res β
  | ok a, f => f a
  | panic, _ => panic

instance : Monad Res where
  pure := Res.ok
  bind := Res.bind

@[simp] theorem pure_eq {α : Type} (a : α) : (pure a : Res α) = ok a := rfl
@[simp] theorem bind_ok {α β : Type} (a : α) (f : α → Res β) : (ok a >>= f) = f a := rfl
@[simp] theorem bind_panic {α β : Type} (f : α → Res β) : ((panic : Res α) >>= f) = panic := rfl
@[simp] theorem map_ok {α β : Type} (a : α) (f : α → β) : (f <$> (ok a : Res α)) = ok (f a) := rfl
@[simp] theorem map_panic {α β : Type} (f : α → β) : (f <$> (panic : Res α)) = panic := rfl

theorem bind_eq_ok {α β : Type} {x : Res α} {f : α → Res β} {b : β} :
    (x >>= f) = ok b ↔ ∃ a, x = ok a ∧ f a = ok b := by
  cases x <;> simp

theorem bind_assoc {α β γ : Type} (x : Res α) (f : α → Res β) (g : β → Res γ) :
    ((x >>= f) >>= g) = (x >>= fun a => f a >>= g) := by
  cases x <;> rfl

instance : LawfulMonad Res := LawfulMonad.mk'
  (id_map := fun x => by cases x <;> rfl)
  (pure_bind := fun _ _ => rfl)
  (bind_assoc := fun x _ _ => by cases x <;> rfl)
  (bind_pure_comp := fun f x => by cases x <;> rfl)

/-- Did the computation finish without panicking? -/
def isOk {α : Type} : Res α → Bool
  | ok _ => true
  | panic => false

theorem isOk_eq_false {α : Type} {r : Res α} : r.isOk = false ↔ r = panic := by
  cases r <;> simp [isOk]

end Res

/-- Cargo build profile, as far as it changes semantics: with `overflowChecks` (the default `dev`
profile) integer overflow and shifts by at least the bit width panic; without (the default
`release` profile) they wrap, the shift amount being reduced modulo the width. -/
structure Build where
  overflowChecks : Bool
deriving DecidableEq, Repr

/-- The default `dev` profile. -/
def Build.dev : Build := ⟨true⟩
/-- The default `release` profile. -/
def Build.release : Build := ⟨false⟩

/-- Slice indexing `s[i]` of Rust: panics when out of bounds. -/
def index {α : Type} (s : List α) (i : Nat) : Res α :=
  match s[i]? with
  | some x => .ok x
  | none => .panic

/-- Range slicing `&s[off..]` of Rust: panics when `off > s.len()`. -/
def sliceFrom {α : Type} (s : List α) (off : Nat) : Res (List α) :=
  if off ≤ s.length then .ok (s.drop off) else .panic

@[simp] theorem index_lt {α : Type} {s : List α} {i : Nat} (h : i < s.length) :
    index s i = .ok s[i] := by
  simp [index, List.getElem?_eq_getElem h]

theorem index_ge {α : Type} {s : List α} {i : Nat} (h : s.length ≤ i) :
    index s i = .panic := by
  simp [index, List.getElem?_eq_none h]

@[simp] theorem index_append_right {α : Type} (a b : List α) :
    index (a ++ b) a.length = index b 0 := by
  simp [index, List.getElem?_append_right]

theorem sliceFrom_le {α : Type} {s : List α} {off : Nat} (h : off ≤ s.length) :
    sliceFrom s off = .ok (s.drop off) := by
  simp [sliceFrom, h]

@[simp] theorem sliceFrom_append {α : Type} (a b : List α) :
    sliceFrom (a ++ b) a.length = .ok b := by
  simp [sliceFrom]

/-- Left shift of a `u32` by a `usize` amount, Rust semantics (`val << n`). -/
def shlU32 (b : Build) (v : UInt32) (n : Nat) : Res UInt32 :=
  if n < 32 then .ok (v <<< UInt32.ofNat n)
  else if b.overflowChecks then .panic
  else .ok (v <<< UInt32.ofNat (n % 32))

/-- Right shift of a `u32` by a `usize` amount, Rust semantics (`val >> n`). -/
def shrU32 (b : Build) (v : UInt32) (n : Nat) : Res UInt32 :=
  if n < 32 then .ok (v >>> UInt32.ofNat n)
  else if b.overflowChecks then .panic
  else .ok (v >>> UInt32.ofNat (n % 32))

/-- Addition of `u32`, Rust semantics (`a + b`). -/
def addU32 (b : Build) (x y : UInt32) : Res UInt32 :=
  if x.toNat + y.toNat < 2 ^ 32 then .ok (x + y)
  else if b.overflowChecks then .panic
  else .ok (x + y)

/-- Subtraction of `u8`, Rust semantics (`a - b`). -/
def subU8 (b : Build) (x y : UInt8) : Res UInt8 :=
  if y ≤ x then .ok (x - y)
  else if b.overflowChecks then .panic
  else .ok (x - y)

/-- Left shift of a `u8` by a `u8` amount, Rust semantics (`a << b`). -/
def shlU8 (b : Build) (x s : UInt8) : Res UInt8 :=
  if s < 8 then .ok (x <<< s)
  else if b.overflowChecks then .panic
  else .ok (x <<< (s % 8))

end Uecho

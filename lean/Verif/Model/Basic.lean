/-!
# Basic vocabulary of the model

Rust strings are modelled as lists of Unicode scalar values (`List Char`); byte offsets are computed
explicitly with `Char.utf8Size`, because fajt works with byte offsets (and confuses them with UTF-16
lengths, see `Verif.Model.Reader`).

Every function that can fail is written in the monad `M`, whose results distinguish the ways a Rust function
can end:

* `ok a s`   – returned `Ok(a)`, leaving state `s`;
* `err e s`  – returned `Err(e)`, leaving state `s` (the state after an error is observable: fajt catches errors
               and rewinds);
* `panic w`  – the thread panicked (`unwrap`, slice index, `unreachable!`);
* `oof`      – the model ran out of fuel.  This is not a behaviour of the Rust code: a run of the code that never
               returns would be `oof` for every amount of fuel, so termination is the theorem "never `oof`".
-/

namespace Fajt

/-- Rust `String`/`&str`: the sequence of its `char`s. -/
abbrev Str := List Char

/-- `c!"abc"` is the literal `['a', 'b', 'c']`, expanded at elaboration time so that the kernel can compute
with it. -/
syntax:max (name := strLit) "c!" noWs str : term
macro_rules
  | `(c!$s:str) => do
    let cs := s.getString.toList
    let elems ← cs.toArray.mapM fun c => `($(Lean.Syntax.mkCharLit c))
    `(([$elems,*] : List Char))

/-- Number of bytes of a string (`str::len`). -/
def byteLen (s : Str) : Nat := (s.map Char.utf8Size).sum

/-- `char::len_utf16` (core library): 1 for the basic multilingual plane, otherwise 2. -/
def lenUtf16 (c : Char) : Nat := if c.toNat < 0x10000 then 1 else 2

/-- `/repo/ast/src/span.rs:5-9` `struct Span`. -/
structure Span where
  start : Nat
  stop : Nat
deriving DecidableEq, Repr, Inhabited

/-- `/repo/ast/src/span.rs:12-14` `Span::empty`. -/
def Span.empty : Span := ⟨0, 0⟩

/-- Outcome of a computation with state `σ`, error type `ε` and result type `α`. -/
inductive Res (σ ε α : Type) where
  | ok (a : α) (s : σ)
  | err (e : ε) (s : σ)
  | panic (why : Str)
  | oof
deriving Repr

/-- State and failure monad of the model. -/
def M (σ ε α : Type) : Type := σ → Res σ ε α

namespace M
variable {σ ε α β : Type}

@[inline] def pure (a : α) : M σ ε α := fun s => .ok a s

@[inline] def bind (m : M σ ε α) (f : α → M σ ε β) : M σ ε β := fun s =>
  match m s with
  | .ok a s' => f a s'
  | .err e s' => .err e s'
  | .panic w => .panic w
  | .oof => .oof

instance : Monad (M σ ε) where
  pure := M.pure
  bind := M.bind

/-- `return Err(e)`. -/
@[inline] def throw (e : ε) : M σ ε α := fun s => .err e s

/-- A Rust panic. -/
@[inline] def panic (w : Str) : M σ ε α := fun _ => .panic w

@[inline] def oof : M σ ε α := fun _ => .oof

@[inline] def get : M σ ε σ := fun s => .ok s s

@[inline] def set (s : σ) : M σ ε Unit := fun _ => .ok () s

@[inline] def modify (f : σ → σ) : M σ ε Unit := fun s => .ok () (f s)

/-- Read off a value of the state (a `&self` accessor). -/
@[inline] def gets (f : σ → α) : M σ ε α := fun s => .ok (f s) s

/-- `match m { Ok(a) => f a, Err(e) => g e }`: only `Err` is caught, a panic is not. -/
@[inline] def attempt (m : M σ ε α) (f : α → M σ ε β) (g : ε → M σ ε β) : M σ ε β := fun s =>
  match m s with
  | .ok a s' => f a s'
  | .err e s' => g e s'
  | .panic w => .panic w
  | .oof => .oof

@[simp] theorem pure_def (a : α) (s : σ) : (Pure.pure a : M σ ε α) s = .ok a s := rfl
@[simp] theorem bind_def (m : M σ ε α) (f : α → M σ ε β) (s : σ) :
    (m >>= f) s = M.bind m f s := rfl
@[simp] theorem throw_def (e : ε) (s : σ) : (M.throw e : M σ ε α) s = .err e s := rfl
@[simp] theorem panic_def (w : Str) (s : σ) : (M.panic w : M σ ε α) s = .panic w := rfl
@[simp] theorem get_def (s : σ) : (M.get : M σ ε σ) s = .ok s s := rfl
@[simp] theorem gets_def (f : σ → α) (s : σ) : (M.gets f : M σ ε α) s = .ok (f s) s := rfl
@[simp] theorem modify_def (f : σ → σ) (s : σ) : (M.modify f : M σ ε Unit) s = .ok () (f s) := rfl

theorem bind_ok {m : M σ ε α} {f : α → M σ ε β} {s : σ} {b : β} {s' : σ}
    (h : M.bind m f s = .ok b s') : ∃ a s1, m s = .ok a s1 ∧ f a s1 = .ok b s' := by
  unfold M.bind at h
  split at h
  · exact ⟨_, _, by assumption, h⟩
  all_goals cases h

end M
end Fajt

import Verif.Model.Registry

/-!
# `functools.lru_cache` around `prop.engine`

`@lru_cache()` (`/repo/openap/prop.py:146`) with its default size 128: the dictionary built by
the first call is stored and handed out again by later calls with an equal argument; it is
mutable and not copied. `prop.aircraft` (`prop.py:48`) is not cached and parses its file anew.
Objects live on a heap (a list; the address is the index); the cache maps argument strings to
addresses, most recently used first. Exceptions are not cached.
-/

namespace Verif.Cache
open Verif.Tables Verif.Registry

/-- Heap of records and the cache. -/
structure State (ρ : Type) where
  heap : List ρ
  cache : List (Str × ℕ)

variable {ρ : Type}

/-- A call of a function decorated with `lru_cache()`: returns the address of the record. -/
def call (f : Str → Except PyError ρ) (s : State ρ) (q : Str) : Except PyError ℕ × State ρ :=
  match lookup q s.cache with
  | some a => (.ok a, ⟨s.heap, (q, a) :: s.cache.filter (fun e => e.1 != q)⟩)
  | none =>
    match f q with
    | .error e => (.error e, s)
    | .ok r => (.ok s.heap.length, ⟨s.heap ++ [r], ((q, s.heap.length) :: s.cache).take 128⟩)

/-- A call of an undecorated function: always a new record. -/
def fresh (f : Str → Except PyError ρ) (s : State ρ) (q : Str) : Except PyError ℕ × State ρ :=
  match f q with
  | .error e => (.error e, s)
  | .ok r => (.ok s.heap.length, ⟨s.heap ++ [r], s.cache⟩)

/-- The caller modifies a record it holds. -/
def write (s : State ρ) (a : ℕ) (g : ρ → ρ) : State ρ := ⟨s.heap.modify a g, s.cache⟩

/-- The record at an address. -/
def read (s : State ρ) (a : ℕ) : Option ρ := s.heap[a]?

/-- What a program can do: call, or modify a record. -/
inductive Op (ρ : Type) where
  | call (q : Str)
  | write (a : ℕ) (g : ρ → ρ)

/-- One operation. -/
def step (f : Str → Except PyError ρ) (s : State ρ) : Op ρ → State ρ
  | .call q => (call f s q).2
  | .write a g => write s a g

/-- A sequence of operations. -/
def run (f : Str → Except PyError ρ) (s : State ρ) (ops : List (Op ρ)) : State ρ :=
  ops.foldl (step f) s

end Verif.Cache

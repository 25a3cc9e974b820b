/-
Specification vocabulary for sample sources: what it means that an object with
a `get_samples(n)` method delivers a fixed stream of samples.
-/
import Verif.Model.PyErr
namespace Verif

/-- Calls `get` once per entry of the request list, collecting the blocks. -/
def runRequests {σ β : Type} (get : σ → Nat → Except PyErr (σ × β)) :
    σ → List Nat → Except PyErr (σ × List β)
  | s, [] => .ok (s, [])
  | s, n :: ns =>
    match get s n with
    | .error e => .error e
    | .ok (s', b) =>
      match runRequests get s' ns with
      | .error e => .error e
      | .ok (s'', bs) => .ok (s'', b :: bs)

/-- The `(ch, n)` array holding samples `off, ..., off+n-1` of a stream. -/
def blockOf {R : Type} (stream : Nat → Nat → R) (ch off n : Nat) : List (List R) :=
  (List.range ch).map fun c => (List.range n).map fun j => stream c (off + j)

/-- Consecutive blocks of a stream with the requested lengths. -/
def blocksOf {R : Type} (stream : Nat → Nat → R) (ch : Nat) : Nat → List Nat → List (List (List R))
  | _, [] => []
  | off, n :: ns => blockOf stream ch off n :: blocksOf stream ch (off + n) ns

/-- The source `get`, started in `s0`, delivers `stream`: for every list of
request sizes all calls succeed and the `i`-th call returns the next
`ns[i]` samples of every channel.  In particular the samples do not depend on
how the requests are split. -/
def IsStream {σ R : Type} (get : σ → Nat → Except PyErr (σ × List (List R))) (s0 : σ)
    (ch : Nat) (stream : Nat → Nat → R) : Prop :=
  ∀ ns, ∃ s', runRequests get s0 ns = .ok (s', blocksOf stream ch 0 ns)

/-- Joining the blocks of a request list channel by channel. -/
def joinBlocks {R : Type} (ch : Nat) (bs : List (List (List R))) : List (List R) :=
  (List.range ch).map fun c => (bs.map fun b => b.getD c []).flatten

end Verif

import Verif.Model.Basic
/-
giron/src/scanner/reader.rs.  The iterator `source: I` is modelled by the list of items it has yet to
yield (a Rust `Chars` is fused: after `None` it keeps returning `None`).
-/
namespace Giron

/-- reader.rs:3-6 `struct Reader` -/
structure Reader where
  source : Str
  buf : Str
deriving Repr

namespace Reader

/-- reader.rs:12-17 `new` -/
def new (source : Str) : Reader := { source, buf := [] }

/-- reader.rs:20-25: the `for _ in self.buf.len()..(n + 1)` loop, `k` iterations left.
The flag says whether the loop ended by `return None`. -/
def fill : Nat → Reader → Bool × Reader
  | 0, r => (true, r)
  | k + 1, r =>
    match r.source with
    | [] => (false, r)
    | c :: cs => fill k { source := cs, buf := r.buf ++ [c] }

/-- reader.rs:19-28 `lookahead` -/
def lookahead (n : Nat) (r : Reader) : Option Char × Reader :=
  match fill (n + 1 - r.buf.length) r with
  | (true, r') => (r'.buf[n]?, r')
  | (false, r') => (none, r')

/-- reader.rs:37-39 `next` -/
def next (r : Reader) : Option Char × Reader :=
  match r.buf with
  | c :: cs => (some c, { r with buf := cs })
  | [] =>
    match r.source with
    | c :: cs => (some c, { r with source := cs })
    | [] => (none, r)

end Reader
end Giron

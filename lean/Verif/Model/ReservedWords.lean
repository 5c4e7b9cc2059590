import Verif.Model.Tokens
/-!
Model of the reserved-word lookup: the build-time bucketing (codegen/rust/reserved_words.rs) and the run-time
binary search (src/reserved_words/mod.rs).
-/
namespace Verif

/-- `<[u8] as Ord>::cmp` (also `str::cmp`, which compares bytes): lexicographic. -/
def cmpBytes : Bytes → Bytes → Ordering
  | [], [] => .eq
  | [], _ :: _ => .lt
  | _ :: _, [] => .gt
  | a :: as, b :: bs => if a < b then .lt else if b < a then .gt else cmpBytes as bs

namespace ReservedWord

/-- Insertion into a list sorted by name, after equal names. -/
def insertSorted (w : ReservedWord) : List ReservedWord → List ReservedWord
  | [] => [w]
  | x :: xs => if cmpBytes w.name x.name == .lt then w :: x :: xs else x :: insertSorted w xs

/-- codegen/rust/reserved_words.rs:285 `words.sort_by(|x, y| x.name.cmp(y.name))`: the stable sort by name
(std's algorithm is replaced by insertion sort; a stable sort has one possible result). -/
def sortByName (ws : List ReservedWord) : List ReservedWord :=
  ws.foldl (fun acc w => insertSorted w acc) []

end ReservedWord

/-- codegen/rust/reserved_words.rs:279 `*self.inner.keys().max().unwrap()`. -/
def reservedMaxLen : Nat := (reservedWordsList.map (·.name.length)).foldl max 0

/-- codegen/rust/reserved_words.rs:267-291 `ReservedWordsList::new` + `group_by_word_size`: bucket `n` holds the words of
length `n` in declaration order, then sorted. This is `RESERVED_WORDS` of the generated src/reserved_words/list.rs. -/
def reservedBuckets : List (List ReservedWord) :=
  (List.range (reservedMaxLen + 1)).map fun n =>
    ReservedWord.sortByName (reservedWordsList.filter fun w => w.name.length == n)

/-- The loop of std's `slice::binary_search_by` (Rust 1.8x): `base`/`size` narrowing, probing `base + size/2`. -/
def binSearchLoop (cmp : ReservedWord → Ordering) (v : List ReservedWord) : (fuel size base : Nat) → Res Nat
  | 0, _, _ => .error .fuel
  | fuel + 1, size, base =>
    if size > 1 then
      let half := size / 2
      let mid := base + half
      match v[mid]? with
      | none => .error .index
      | some w =>
        let base := if cmp w == .gt then base else mid
        binSearchLoop cmp v fuel (size - half) base
    else .ok base

/-- std's `slice::binary_search_by(..).ok()`. -/
def binarySearchBy (cmp : ReservedWord → Ordering) (v : List ReservedWord) : Res (Option Nat) :=
  if v.length = 0 then .ok none
  else do
    let base ← binSearchLoop cmp v v.length v.length 0
    match v[base]? with
    | none => .error .index
    | some w => return if cmp w == .eq then some base else none

/-- src/reserved_words/mod.rs:9-16 `reserved_word`. -/
def reservedWord (tok : Bytes) : Res (Option ReservedWord) :=
  match reservedBuckets[tok.length]? with
  | none => .ok none
  | some bucket => do
    match ← binarySearchBy (fun e => cmpBytes e.name tok) bucket with
    | none => return none
    | some idx =>
      match bucket[idx]? with
      | some w => return some w
      | none => .error .index

end Verif

import Verif.Model.Matcher
/-!
# Iterating over the numbers found

`FindNumbersWithLeniency` gives an `iter.Seq`: a function that calls the `yield` of its consumer for every match until the consumer
refuses.  `Finder.iterate` in `Verif/Model/Matcher.lean` is the case of a consumer that never does.
-/
namespace Verif
namespace Finder

/-- phonenumberutil.go 2684-2691: the function given to the consumer, with the consumer's state `κ`; `yield` gives the answer whether to
go on and the new state.  `none` would be a nil match.  Every run of it makes its own matcher (2685), so the runs of one iterator do not
depend on each other.  The fuel is that of `iterate`. -/
def consume {κ : Type} (F : Finder) (yield : κ → Option FoundNumber → Bool × κ) : Nat → Cursor → κ → Go κ
  | 0, _, k => .ok k
  | fuel + 1, c, k => do
    match ← F.hasNext c with
    | (false, _) => return k
    | (true, c) =>
      let r ← F.next c
      match yield k r.1 with
      | (true, k) => F.consume yield fuel r.2 k
      | (false, k) => return k

/-- phonenumberutil.go 2683-2692: ranging over the result of `FindNumbersWithLeniency`. -/
def rangeOver {κ : Type} (F : Finder) (maxTries : Int) (yield : κ → Option FoundNumber → Bool × κ) (k : κ) : Go κ :=
  F.consume yield (F.text.length + 1) (new maxTries) k

end Finder
end Verif

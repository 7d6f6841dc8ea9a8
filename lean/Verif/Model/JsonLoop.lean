import Verif.Model.Json

/-!
# The loop over the members of an object

All the functions generated to read objects contain the same loop, for example
pkg/generators/golang/json_generator.go:514-527 or pkg/generators/golang/errors_generator.go:527-569:

```
for {
	field := iterator.ReadObject()
	if field == "" {
		break
	}
	switch field {
	...
	}
}
```
-/

namespace Verif

namespace GoJson

/-- The loop, for a state and the `switch` that changes it. The first argument bounds the number
of steps. -/
def readLoop {σ : Type} (step : Nat → Text → σ → List Tok → Option (σ × List Tok)) :
    Nat → σ → List Tok → Option (σ × List Tok)
  | 0, _, _ => none
  | fuel + 1, s, r =>
    match readObject r with
    | none => none
    | some (field, r) =>
      if field = [] then some (s, r)
      else
        match step fuel field s r with
        | none => none
        | some (s, r) => readLoop step fuel s r

/-- The default case of the `switch`: `iterator.ReadAny()`. -/
def skipValue {σ : Type} (fuel : Nat) (s : σ) (r : List Tok) : Option (σ × List Tok) :=
  (parseVal fuel r).map fun p => (s, p.2)

end GoJson

end Verif

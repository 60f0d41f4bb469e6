import Verif.Model.ProgressBar
/-!
# What a progress bar shows
-/
namespace Verif.Spec

/-- The percentage, rounded to the nearest whole number (halves up). -/
def percent (progress max : Nat) : Nat := (200 * progress + max) / (2 * max)

/-- `l` is a line that fills a terminal of `tw` columns: a bar of `m` columns in brackets, of which the part that is done is drawn with `=` and, before the
end, an arrow tip; then the percentage and the numbers `text`. -/
structure FullLine (tw progress max : Nat) (text l : List Char) : Prop where
  width : l.length = tw
  shape : ∃ done todo m : Nat,
    m + text.length + 3 = tw ∧
    l = '[' :: (List.replicate done '=' ++ (if progress < max then ['>'] else []) ++ List.replicate todo ' ') ++ [']', ' '] ++ text ∧
    (max ≤ progress → done = m ∧ todo = 0) ∧
    -- the tip is at the column that corresponds to the progress, or at the first
    (progress < max → done + 1 + todo = m ∧ (done = 0 ∨ (done + 1) * max ≤ m * progress) ∧ m * progress < (done + 2) * max)

end Verif.Spec

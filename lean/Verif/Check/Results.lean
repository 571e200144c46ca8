import Verif.Check.ModelTests
import Verif.Check.WikiTests
/-
Which tests of the authors pass in the model.  Those that do not pass fail in the code for the reasons given.
-/
namespace Bglib.Check

/-- Both tests ask `guess_your_making_point` for what it does not do (`C45_false`). -/
theorem model_tests : (modelTests.filter fun t => !passes t.2).map (·.1) = ["move_mf_24_test", "move_mf_26_test"] := by decide +kernel

/-- The tests that do not pass. -/
def failing (l : List (String × WikiTest)) : List String := (l.filter fun t => !t.2.passes).map (·.1)

/-- Six of the tests. -/
def part (k : Nat) : List (String × WikiTest) := (wikiTests.drop (6 * k)).take 6

private theorem part_0 : failing (part 0) = [] := by decide +kernel

private theorem part_1 : failing (part 1) = [] := by decide +kernel

private theorem part_2 : failing (part 2) = [] := by decide +kernel

private theorem part_3 : failing (part 3) = [] := by decide +kernel

private theorem part_4 : failing (part 4) = [] := by decide +kernel

private theorem part_5 : failing (part 5) = ["test_preformatted_empty", "test_preformatted_emptyline", "test_preformatted_emptylines", "test_preformatted", "test_preformatted_2"] := by decide +kernel

private theorem part_6 : failing (part 6) = [] := by decide +kernel

private theorem part_7 : failing (part 7) = [] := by decide +kernel

private theorem part_8 : failing (part 8) = ["test_macro_timestamp"] := by decide +kernel

private theorem part_9 : failing (part 9) = [] := by decide +kernel

private theorem part_10 : failing (part 10) = [] := by decide +kernel

private theorem part_11 : failing (part 11) = [] := by decide +kernel

private theorem part_12 : failing (part 12) = [] := by decide +kernel

private theorem failing_append (a b : List (String × WikiTest)) : failing (a ++ b) = failing a ++ failing b := by
  simp only [failing, List.filter_append, List.map_append]

/-- The tests of preformatted text expect it inside the paragraph, but `DivElement` accepts only spans and boxes
(doctree.py:193-196), so that the node is added to the root; the last one expects a certain day. -/
theorem wiki_tests : failing wikiTests =
    ["test_preformatted_empty", "test_preformatted_emptyline", "test_preformatted_emptylines", "test_preformatted",
      "test_preformatted_2", "test_macro_timestamp"] := by
  have h : wikiTests = part 0 ++ (part 1 ++ (part 2 ++ (part 3 ++ (part 4 ++ (part 5 ++ (part 6 ++ (part 7 ++ (part 8 ++ (part 9 ++ (part 10 ++ (part 11 ++ (part 12)))))))))))) := rfl
  rw [h]
  simp only [failing_append, part_0, part_1, part_2, part_3, part_4, part_5, part_6, part_7, part_8, part_9, part_10, part_11, part_12]
  rfl

/-- How many tests there are. -/
example : (modelTests.length, wikiTests.length) = (54, 73) := by decide +kernel

end Bglib.Check

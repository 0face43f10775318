import Verif.Spec.OpTables
import Verif.Proofs.ProgClimb

/-! The tables of the parsers, as their `infix` has them. -/
namespace Oaks.Spec
open Prog

/-- The parser of a language with the precedences of its `infix` and the functions that parse expressions. -/
def OpLang.asParser (L : OpLang) (ops : List (Nat × Nat × Assoc)) (levels : List (Nat × Nat)) (first : Nat) : OpParser where
  ign := L.parser.ign
  procs := L.parser.procs
  atoms := L.operands
  ops := ops
  stops := L.unknown ++ L.blanks ++ L.ends
  levels := levels
  firsts := [first]
  operand := L.operand
  operation := L.operation

/-- The table knows the operators, and differs from the reference in the disputed pairs only. -/
def OpLang.agrees (L : OpLang) (ops : List (Nat × Nat × Assoc)) : Bool :=
  L.known.all (fun k => ops.any fun o => o.1 == k) && ops.all fun x => ops.all fun y =>
    match L.ref.keeps x.1 y.1 with
    | none => L.disputed.all fun d => !(d.1.contains x.1 && d.2.contains y.1)
    | some b => (L.disputed.any fun d => d.1.contains x.1 && d.2.contains y.1) == (b != decide (y.2.1 < OpParser.next x.2.1 x.2.2))

/-- All that is to be checked. -/
def OpLang.fine (L : OpLang) (ops : List (Nat × Nat × Assoc)) (levels : List (Nat × Nat)) (first : Nat) : Bool :=
  (L.asParser ops levels first).check && L.agrees ops && levels.contains (L.start, 0)

theorem actionscript_fine : opsActionscript.fine [(79, 1, .right), (100, 1, .right), (101, 1, .right), (102, 1, .right), (103, 1, .right), (104, 1, .right), (105, 1, .right),
    (106, 1, .right), (107, 1, .right), (108, 1, .right), (109, 1, .right), (110, 1, .right), (89, 3, .left), (88, 4, .left),
    (92, 7, .left), (93, 8, .left), (91, 9, .left), (80, 5, .left), (82, 5, .left), (81, 5, .left), (83, 5, .left), (84, 6, .left),
    (86, 6, .left), (85, 6, .left), (87, 6, .left), (95, 10, .left), (96, 10, .left), (97, 10, .left), (74, 11, .left), (75, 11, .left),
    (76, 12, .left), (77, 12, .left), (78, 12, .left)]
    [(15, 0), (16, 1), (17, 4), (18, 5), (19, 6), (20, 7), (21, 8), (22, 9), (23, 10), (24, 11), (25, 12), (26, 13)] 1 = true := by decide +kernel

theorem c_fine : opsC.fine [(16, 1, .right), (17, 1, .right), (18, 1, .right), (19, 1, .right), (20, 1, .right), (21, 1, .right), (37, 1, .right),
    (38, 1, .right), (39, 1, .right), (40, 1, .right), (41, 1, .right), (29, 2, .left), (28, 3, .left), (22, 4, .left), (23, 4, .left),
    (24, 4, .left), (25, 4, .left), (26, 4, .left), (27, 4, .left), (11, 10, .left), (12, 10, .left), (13, 11, .left), (14, 11, .left),
    (15, 11, .left)]
    [(9, 0), (10, 1), (11, 3), (12, 4), (13, 5), (14, 11), (15, 12)] 8 = true := by decide +kernel

theorem csharp_fine : opsCsharp.fine [(221, 1, .right), (222, 1, .right), (223, 1, .right), (224, 1, .right), (225, 1, .right), (226, 1, .right), (213, 2, .left),
    (212, 3, .left), (206, 4, .left), (207, 4, .left), (208, 4, .left), (210, 4, .left), (209, 4, .left), (211, 4, .left),
    (191, 10, .left), (192, 10, .left), (193, 11, .left), (194, 11, .left), (195, 11, .left)]
    [(13, 0), (14, 1), (15, 3), (16, 4), (17, 5), (18, 11), (19, 12)] 1 = true := by decide +kernel

theorem elixir_fine : opsElixir.fine [(58, 1, .right), (66, 2, .left), (65, 3, .left), (59, 4, .left), (60, 4, .left), (61, 5, .left), (63, 5, .left), (62, 5, .left),
    (64, 5, .left), (71, 6, .left), (68, 7, .left), (69, 7, .left), (70, 7, .left), (42, 8, .left), (43, 8, .left), (44, 9, .left),
    (45, 9, .left)]
    [(4, 0), (5, 1), (6, 3), (7, 4), (8, 5), (9, 6), (10, 7), (11, 8), (12, 9), (13, 10)] 1 = true := by decide +kernel

theorem go_fine : opsGo.fine [(136, 1, .right), (142, 1, .right), (126, 2, .left), (125, 3, .left), (133, 4, .left), (139, 4, .left), (134, 4, .left),
    (140, 4, .left), (135, 4, .left), (141, 4, .left), (98, 5, .left), (99, 5, .left), (104, 5, .left), (105, 5, .left), (100, 6, .left),
    (101, 6, .left), (102, 6, .left), (106, 6, .left), (107, 6, .left), (103, 6, .left), (108, 6, .left)]
    [(15, 0), (16, 1), (17, 3), (18, 4), (19, 5), (20, 6), (21, 7)] 14 = true := by decide +kernel

theorem javascript_fine : opsJavascript.fine [(79, 1, .right), (80, 1, .right), (81, 1, .right), (82, 1, .right), (83, 1, .right), (84, 1, .right), (85, 1, .right),
    (86, 1, .right), (87, 1, .right), (88, 1, .right), (89, 1, .right), (90, 1, .right), (91, 1, .right), (92, 1, .right),
    (93, 1, .right), (94, 1, .right), (75, 2, .left), (74, 3, .left), (65, 4, .left), (66, 4, .left), (67, 4, .left), (68, 4, .left),
    (50, 10, .left), (51, 10, .left), (52, 11, .left), (53, 11, .left), (54, 11, .left)]
    [(9, 0), (10, 1), (11, 3), (12, 4), (13, 5), (14, 11), (15, 12)] 8 = true := by decide +kernel

theorem kotlin_fine : opsKotlin.fine [(92, 1, .right), (93, 1, .right), (94, 1, .right), (95, 1, .right), (96, 1, .right), (97, 1, .right), (105, 2, .left),
    (104, 3, .left), (98, 5, .left), (99, 5, .left), (85, 0, .left), (86, 0, .left), (102, 5, .left), (103, 5, .left), (64, 5, .left),
    (112, 8, .left), (79, 6, .left), (80, 6, .left), (81, 7, .left), (82, 7, .left), (83, 7, .left), (65, 5, .left)]
    [(11, 0), (12, 1), (13, 3), (14, 4), (15, 6), (16, 7), (17, 8), (18, 9)] 10 = true := by decide +kernel

theorem lua_fine : opsLua.fine [(16, 1, .left), (1, 2, .left), (43, 3, .left), (44, 3, .left), (41, 3, .left), (42, 3, .left), (40, 3, .left), (39, 3, .left),
    (35, 4, .left), (34, 5, .left), (33, 6, .left), (36, 7, .left), (37, 7, .left), (57, 8, .right), (26, 9, .left), (27, 9, .left),
    (28, 10, .left), (29, 10, .left), (38, 10, .left), (30, 10, .left), (31, 12, .right)]
    [(17, 0), (18, 2), (19, 3), (20, 4), (21, 5), (22, 6), (23, 7), (24, 8), (25, 10), (26, 11), (27, 12)] 16 = true := by decide +kernel

theorem mojo_fine : opsMojo.fine [(27, 5, .left), (28, 5, .left), (29, 5, .left), (30, 5, .left), (31, 5, .left), (32, 5, .left), (21, 10, .left), (22, 10, .left),
    (23, 20, .left), (24, 20, .left), (25, 20, .left)]
    [(15, 0), (10, 11), (11, 21), (12, 6)] 14 = true := by decide +kernel

theorem php_fine : opsPhp.fine [(101, 1, .right), (102, 1, .right), (103, 1, .right), (104, 1, .right), (105, 1, .right), (106, 1, .right), (108, 1, .right),
    (109, 1, .right), (110, 1, .right), (111, 1, .right), (112, 1, .right), (113, 1, .right), (92, 2, .left), (91, 3, .left),
    (82, 4, .left), (84, 4, .left), (83, 4, .left), (85, 4, .left), (90, 4, .left), (86, 4, .left), (88, 4, .left), (87, 4, .left),
    (89, 4, .left), (75, 10, .left), (76, 10, .left), (77, 11, .left), (78, 11, .left), (79, 11, .left)]
    [(15, 0), (16, 1), (17, 3), (18, 4), (19, 5), (20, 11), (21, 12)] 1 = true := by decide +kernel

theorem ruby_fine : opsRuby.fine [(89, 1, .left), (88, 2, .left), (61, 5, .left), (62, 5, .left), (63, 5, .left), (65, 5, .left), (64, 5, .left), (66, 5, .left),
    (55, 10, .left), (56, 10, .left), (57, 20, .left), (58, 20, .left), (59, 20, .left), (60, 30, .right)]
    [(10, 0), (11, 2), (12, 3), (13, 6), (14, 11), (16, 21), (17, 30)] 9 = true := by decide +kernel

theorem rust_fine : opsRust.fine [(92, 1, .right), (109, 1, .right), (110, 1, .right), (111, 1, .right), (112, 1, .right), (113, 1, .right), (114, 1, .right),
    (115, 1, .right), (116, 1, .right), (72, 2, .left), (74, 2, .left), (104, 3, .left), (103, 4, .left), (97, 5, .left), (98, 5, .left),
    (89, 7, .left), (87, 8, .left), (88, 9, .left), (82, 11, .left), (83, 11, .left), (84, 12, .left), (85, 12, .left), (86, 12, .left)]
    [(28, 0), (29, 1), (30, 3), (31, 4), (32, 5), (33, 6), (35, 8), (36, 9), (37, 10), (39, 12), (40, 13)] 1 = true := by decide +kernel

theorem sql_fine : opsSql.fine [(56, 1, .left), (55, 2, .left), (118, 3, .left), (119, 3, .left), (120, 3, .left), (121, 3, .left), (122, 3, .left), (123, 3, .left),
    (113, 10, .left), (114, 10, .left), (115, 11, .left), (116, 11, .left), (117, 11, .left)]
    [(10, 0), (11, 2), (12, 3), (13, 4), (14, 11), (15, 12)] 1 = true := by decide +kernel

theorem swift_fine : opsSwift.fine [(101, 1, .right), (102, 1, .right), (103, 1, .right), (104, 1, .right), (105, 1, .right), (106, 1, .right), (107, 1, .right),
    (108, 1, .right), (109, 1, .right), (110, 1, .right), (111, 1, .right), (93, 2, .left), (92, 3, .left), (86, 5, .left),
    (87, 5, .left), (88, 5, .left), (89, 5, .left), (90, 5, .left), (91, 5, .left), (113, 9, .left), (70, 5, .left), (71, 5, .left),
    (116, 6, .left), (117, 6, .left), (81, 7, .left), (82, 7, .left), (96, 7, .left), (97, 7, .left), (83, 8, .left), (84, 8, .left),
    (85, 8, .left), (95, 8, .left), (99, 8, .left), (100, 8, .left)]
    [(10, 0), (11, 1), (12, 3), (13, 4), (14, 6), (15, 7), (16, 8), (17, 9), (18, 10)] 9 = true := by decide +kernel

theorem wolfram_fine : opsWolfram.fine [(62, 20, .right), (25, 20, .right), (52, 40, .left), (77, 30, .right), (49, 50, .left), (48, 60, .left), (42, 70, .left),
    (43, 70, .left), (44, 70, .left), (45, 70, .left), (46, 70, .left), (47, 70, .left), (37, 80, .left), (38, 80, .left),
    (39, 90, .left), (40, 90, .left), (41, 120, .right), (53, 110, .right), (54, 110, .right), (55, 110, .right), (56, 110, .right),
    (51, 100, .right)]
    [(18, 0), (2, 100), (3, 110), (4, 120), (6, 20), (7, 30), (8, 41), (9, 51), (10, 61), (11, 71), (12, 81), (13, 91)] 17 = true := by decide +kernel

theorem zig_fine : opsZig.fine [(116, 1, .right), (117, 1, .right), (118, 1, .right), (119, 1, .right), (120, 1, .right), (121, 1, .right), (122, 1, .right),
    (123, 1, .right), (124, 1, .right), (125, 1, .right), (126, 1, .right), (56, 2, .left), (55, 3, .left), (108, 4, .left),
    (109, 4, .left), (110, 4, .left), (111, 4, .left), (112, 4, .left), (113, 4, .left), (145, 7, .right), (146, 7, .right),
    (91, 5, .left), (92, 5, .left), (100, 5, .left), (93, 6, .left), (94, 6, .left), (95, 6, .left), (96, 6, .left), (115, 2, .left)]
    [(10, 0), (11, 1), (12, 3), (13, 4), (14, 5), (15, 6), (16, 7)] 1 = true := by decide +kernel

/-- Every language has such a table. -/
theorem opLangs_fine : ∀ L ∈ opLangs, ∃ ops levels first, L.fine ops levels first = true := by
  intro L hL
  simp only [opLangs, List.mem_cons, List.not_mem_nil, or_false] at hL
  rcases hL with rfl | rfl | rfl | rfl | rfl | rfl | rfl | rfl | rfl | rfl | rfl | rfl | rfl | rfl | rfl | rfl
  · exact ⟨_, _, _, actionscript_fine⟩
  · exact ⟨_, _, _, c_fine⟩
  · exact ⟨_, _, _, csharp_fine⟩
  · exact ⟨_, _, _, elixir_fine⟩
  · exact ⟨_, _, _, go_fine⟩
  · exact ⟨_, _, _, javascript_fine⟩
  · exact ⟨_, _, _, kotlin_fine⟩
  · exact ⟨_, _, _, lua_fine⟩
  · exact ⟨_, _, _, mojo_fine⟩
  · exact ⟨_, _, _, php_fine⟩
  · exact ⟨_, _, _, ruby_fine⟩
  · exact ⟨_, _, _, rust_fine⟩
  · exact ⟨_, _, _, sql_fine⟩
  · exact ⟨_, _, _, swift_fine⟩
  · exact ⟨_, _, _, wolfram_fine⟩
  · exact ⟨_, _, _, zig_fine⟩

end Oaks.Spec

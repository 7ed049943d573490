import Verif.Model.ParserRun
import Verif.Util.KRfl
/-!
# The parser's automaton, written out

Generated by `tools/parser_tables.txt` from the model; nothing here is trusted: `parser_decoded` checks it against the
model.
-/

namespace BoolParser

/-- The transitions of the parser's automaton. -/
def parserEdges : List (Nat × ATrans) := [
    (0, .eps 22), (2, .eps 53), (4, .eps 86), (6, .eps 88), (8, .eps 90), (10, .eps 92),
    (12, .eps 127), (14, .eps 129), (16, .eps 140), (18, .eps 142), (20, .eps 144), (22, .rule 2 23 0),
    (23, .atom 0 24), (24, .eps 1), (25, .action 0 26), (26, .atom 33 27), (27, .rule 2 28 0), (28, .atom 34 29),
    (29, .eps 54), (30, .atom 6 31), (31, .rule 2 54 15), (32, .atom 22 33), (33, .rule 2 54 13), (34, .rule 8 35 0),
    (35, .rule 10 36 0), (36, .eps 54), (37, .rule 16 54 0), (38, .atom 44 39), (39, .rule 14 40 0), (40, .atom 3 41),
    (41, .rule 14 42 0), (42, .eps 54), (43, .atom 44 45), (44, .atom 6 46), (45, .eps 44), (45, .eps 46),
    (46, .eps 47), (47, .atom 2 48), (48, .rule 10 54 0), (49, .atom 44 50), (50, .rule 12 51 0), (51, .rule 10 52 0),
    (52, .eps 54), (53, .eps 25), (53, .eps 30), (53, .eps 32), (53, .eps 34), (53, .eps 37),
    (53, .eps 38), (53, .eps 43), (53, .eps 49), (54, .eps 83), (55, .prec 14 56), (56, .rule 4 57 0),
    (57, .rule 2 58 15), (58, .eps 82), (59, .prec 12 60), (60, .atom 26 61), (61, .rule 2 82 13), (62, .prec 11 63),
    (63, .atom 24 64), (64, .rule 2 82 12), (65, .prec 10 66), (66, .atom 23 67), (67, .rule 2 82 11), (68, .prec 9 69),
    (69, .atom 25 70), (70, .rule 2 82 10), (71, .prec 8 72), (72, .atom 21 73), (73, .rule 2 82 9), (74, .prec 7 75),
    (75, .atom 22 76), (76, .rule 2 82 8), (77, .prec 5 78), (78, .rule 18 79 0), (79, .rule 2 80 6), (80, .eps 82),
    (81, .eps 55), (81, .eps 59), (81, .eps 62), (81, .eps 65), (81, .eps 68), (81, .eps 71),
    (81, .eps 74), (81, .eps 77), (82, .eps 85), (83, .eps 81), (83, .eps 84), (84, .eps 3),
    (85, .eps 83), (86, .set [(27, 32)] 87), (87, .eps 5), (88, .set [(21, 26)] 89), (89, .eps 7), (90, .set [(11, 20)] 91),
    (91, .eps 9), (92, .atom 33 96), (93, .atom 40 95), (94, .eps 93), (95, .eps 98), (96, .eps 94),
    (96, .eps 97), (97, .eps 99), (98, .eps 96), (99, .rule 2 103 0), (100, .atom 40 102), (101, .eps 100),
    (102, .eps 105), (103, .eps 101), (103, .eps 104), (104, .eps 122), (105, .eps 103), (106, .atom 1 110),
    (107, .atom 40 109), (108, .eps 107), (109, .eps 112), (110, .eps 108), (110, .eps 111), (111, .eps 113),
    (112, .eps 110), (113, .rule 2 117 0), (114, .atom 40 116), (115, .eps 114), (116, .eps 119), (117, .eps 115),
    (117, .eps 118), (118, .eps 121), (119, .eps 117), (120, .eps 106), (121, .eps 124), (122, .eps 120),
    (122, .eps 123), (123, .eps 125), (124, .eps 122), (125, .atom 34 126), (126, .eps 11), (127, .set [(9, 10)] 128),
    (128, .eps 13), (129, .set [(35, 35), (37, 37)] 130), (130, .eps 15), (131, .atom 37 141), (132, .atom 35 141), (133, .atom 36 141),
    (134, .rule 20 141 0), (135, .atom 41 141), (136, .atom 44 141), (137, .atom 38 141), (138, .atom 39 141), (139, .eps 141),
    (140, .eps 131), (140, .eps 132), (140, .eps 133), (140, .eps 134), (140, .eps 135), (140, .eps 136),
    (140, .eps 137), (140, .eps 138), (140, .eps 139), (141, .eps 17), (142, .set [(4, 5)] 143), (143, .eps 19),
    (144, .set [(7, 8)] 145), (145, .eps 21)]

/-- The automaton in the generated parser. -/
def parserAtn : ATN where
  grammarType := 1
  maxTokenType := 47
  nonGreedy := []
  precedence := [2]
  modes := []
  rules := [(0, 0), (2, 0), (4, 0), (6, 0), (8, 0), (10, 0), (12, 0), (14, 0), (16, 0), (18, 0), (20, 0)]
  actions := []
  decisions := [45, 53, 81, 83, 96, 103, 110, 117, 122, 140]
  states := [
    ⟨2,0⟩, ⟨7,0⟩, ⟨2,1⟩, ⟨7,1⟩, ⟨2,2⟩, ⟨7,2⟩, ⟨2,3⟩, ⟨7,3⟩, ⟨2,4⟩, ⟨7,4⟩, ⟨2,5⟩, ⟨7,5⟩, ⟨2,6⟩, ⟨7,6⟩,
    ⟨2,7⟩, ⟨7,7⟩, ⟨2,8⟩, ⟨7,8⟩, ⟨2,9⟩, ⟨7,9⟩, ⟨2,10⟩, ⟨7,10⟩, ⟨1,0⟩, ⟨1,0⟩, ⟨1,0⟩, ⟨1,1⟩, ⟨1,1⟩, ⟨1,1⟩,
    ⟨1,1⟩, ⟨1,1⟩, ⟨1,1⟩, ⟨1,1⟩, ⟨1,1⟩, ⟨1,1⟩, ⟨1,1⟩, ⟨1,1⟩, ⟨1,1⟩, ⟨1,1⟩, ⟨1,1⟩, ⟨1,1⟩, ⟨1,1⟩, ⟨1,1⟩,
    ⟨1,1⟩, ⟨1,1⟩, ⟨1,1⟩, ⟨3,1⟩, ⟨8,1⟩, ⟨1,1⟩, ⟨1,1⟩, ⟨1,1⟩, ⟨1,1⟩, ⟨1,1⟩, ⟨1,1⟩, ⟨3,1⟩, ⟨8,1⟩, ⟨1,1⟩,
    ⟨1,1⟩, ⟨1,1⟩, ⟨1,1⟩, ⟨1,1⟩, ⟨1,1⟩, ⟨1,1⟩, ⟨1,1⟩, ⟨1,1⟩, ⟨1,1⟩, ⟨1,1⟩, ⟨1,1⟩, ⟨1,1⟩, ⟨1,1⟩, ⟨1,1⟩,
    ⟨1,1⟩, ⟨1,1⟩, ⟨1,1⟩, ⟨1,1⟩, ⟨1,1⟩, ⟨1,1⟩, ⟨1,1⟩, ⟨1,1⟩, ⟨1,1⟩, ⟨1,1⟩, ⟨1,1⟩, ⟨5,1⟩, ⟨8,1⟩, ⟨10,1⟩,
    ⟨12,1⟩, ⟨9,1⟩, ⟨1,2⟩, ⟨1,2⟩, ⟨1,3⟩, ⟨1,3⟩, ⟨1,4⟩, ⟨1,4⟩, ⟨1,5⟩, ⟨1,5⟩, ⟨5,5⟩, ⟨8,5⟩, ⟨10,5⟩, ⟨12,5⟩,
    ⟨9,5⟩, ⟨1,5⟩, ⟨1,5⟩, ⟨5,5⟩, ⟨8,5⟩, ⟨10,5⟩, ⟨12,5⟩, ⟨9,5⟩, ⟨1,5⟩, ⟨1,5⟩, ⟨5,5⟩, ⟨8,5⟩, ⟨10,5⟩, ⟨12,5⟩,
    ⟨9,5⟩, ⟨1,5⟩, ⟨1,5⟩, ⟨5,5⟩, ⟨8,5⟩, ⟨10,5⟩, ⟨12,5⟩, ⟨9,5⟩, ⟨5,5⟩, ⟨8,5⟩, ⟨10,5⟩, ⟨12,5⟩, ⟨9,5⟩, ⟨1,5⟩,
    ⟨1,5⟩, ⟨1,6⟩, ⟨1,6⟩, ⟨1,7⟩, ⟨1,7⟩, ⟨1,8⟩, ⟨1,8⟩, ⟨1,8⟩, ⟨1,8⟩, ⟨1,8⟩, ⟨1,8⟩, ⟨1,8⟩, ⟨1,8⟩, ⟨1,8⟩,
    ⟨3,8⟩, ⟨8,8⟩, ⟨1,9⟩, ⟨1,9⟩, ⟨1,10⟩, ⟨1,10⟩, ⟨1,10⟩]
  edges := parserEdges

theorem parser_decoded : compiledParser = some parserAtn := by krfl

end BoolParser

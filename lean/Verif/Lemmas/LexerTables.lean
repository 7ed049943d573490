import Verif.Model.LexerSim
import Verif.Util.KRfl
/-!
# The lexer's automaton, written out

Generated by `tools/lexer_tables.txt` from the model; nothing here is trusted: `Verif/Lemmas/LexerCheck.lean` checks it
against the model.
-/

namespace BoolParser

/-- A state of the deterministic automaton of one lexer rule: the configurations, whether the rule may end here, and
where to go on reading a character of an interval. -/
structure DRow where
  cfgs : List Cfg
  acc : Bool
  edges : List (Nat × Nat × Nat)
deriving DecidableEq

/-- The automaton in the generated lexer. -/
def lexerAtn : ATN where
  grammarType := 0
  maxTokenType := 47
  nonGreedy := [394, 403, 420, 429]
  precedence := []
  modes := [0]
  rules := [
    (1,1), (3,2), (5,3), (7,4), (9,5), (11,6), (13,7), (15,8), (17,9), (19,10), (21,11), (23,12),
    (25,13), (27,14), (29,15), (31,16), (33,17), (35,18), (37,19), (39,20), (41,21), (43,22), (45,23), (47,24),
    (49,25), (51,26), (53,27), (55,28), (57,29), (59,30), (61,31), (63,32), (65,33), (67,34), (69,35), (71,36),
    (73,37), (75,38), (77,39), (79,40), (81,41), (83,42), (85,43), (87,44), (89,45), (91,46), (93,47), (95,0),
    (97,0)]
  actions := [(6, (0, 0))]
  decisions := [0, 105, 111, 121, 129, 137, 147, 159, 185, 211, 219, 227, 235, 243, 253, 263, 277, 285, 293, 319, 355, 361, 368, 373, 382, 388, 394, 403, 410, 412, 420, 429]
  states := [
    ⟨6,-1⟩, ⟨2,0⟩, ⟨7,0⟩, ⟨2,1⟩, ⟨7,1⟩, ⟨2,2⟩, ⟨7,2⟩, ⟨2,3⟩, ⟨7,3⟩, ⟨2,4⟩, ⟨7,4⟩, ⟨2,5⟩, ⟨7,5⟩, ⟨2,6⟩,
    ⟨7,6⟩, ⟨2,7⟩, ⟨7,7⟩, ⟨2,8⟩, ⟨7,8⟩, ⟨2,9⟩, ⟨7,9⟩, ⟨2,10⟩, ⟨7,10⟩, ⟨2,11⟩, ⟨7,11⟩, ⟨2,12⟩, ⟨7,12⟩, ⟨2,13⟩,
    ⟨7,13⟩, ⟨2,14⟩, ⟨7,14⟩, ⟨2,15⟩, ⟨7,15⟩, ⟨2,16⟩, ⟨7,16⟩, ⟨2,17⟩, ⟨7,17⟩, ⟨2,18⟩, ⟨7,18⟩, ⟨2,19⟩, ⟨7,19⟩, ⟨2,20⟩,
    ⟨7,20⟩, ⟨2,21⟩, ⟨7,21⟩, ⟨2,22⟩, ⟨7,22⟩, ⟨2,23⟩, ⟨7,23⟩, ⟨2,24⟩, ⟨7,24⟩, ⟨2,25⟩, ⟨7,25⟩, ⟨2,26⟩, ⟨7,26⟩, ⟨2,27⟩,
    ⟨7,27⟩, ⟨2,28⟩, ⟨7,28⟩, ⟨2,29⟩, ⟨7,29⟩, ⟨2,30⟩, ⟨7,30⟩, ⟨2,31⟩, ⟨7,31⟩, ⟨2,32⟩, ⟨7,32⟩, ⟨2,33⟩, ⟨7,33⟩, ⟨2,34⟩,
    ⟨7,34⟩, ⟨2,35⟩, ⟨7,35⟩, ⟨2,36⟩, ⟨7,36⟩, ⟨2,37⟩, ⟨7,37⟩, ⟨2,38⟩, ⟨7,38⟩, ⟨2,39⟩, ⟨7,39⟩, ⟨2,40⟩, ⟨7,40⟩, ⟨2,41⟩,
    ⟨7,41⟩, ⟨2,42⟩, ⟨7,42⟩, ⟨2,43⟩, ⟨7,43⟩, ⟨2,44⟩, ⟨7,44⟩, ⟨2,45⟩, ⟨7,45⟩, ⟨2,46⟩, ⟨7,46⟩, ⟨2,47⟩, ⟨7,47⟩, ⟨2,48⟩,
    ⟨7,48⟩, ⟨1,0⟩, ⟨1,0⟩, ⟨1,1⟩, ⟨1,1⟩, ⟨1,1⟩, ⟨1,1⟩, ⟨3,1⟩, ⟨8,1⟩, ⟨1,2⟩, ⟨1,2⟩, ⟨1,2⟩, ⟨1,2⟩, ⟨3,2⟩,
    ⟨8,2⟩, ⟨1,3⟩, ⟨1,3⟩, ⟨1,3⟩, ⟨1,3⟩, ⟨1,3⟩, ⟨1,3⟩, ⟨1,3⟩, ⟨1,3⟩, ⟨3,3⟩, ⟨8,3⟩, ⟨1,4⟩, ⟨1,4⟩, ⟨1,4⟩,
    ⟨1,4⟩, ⟨1,4⟩, ⟨1,4⟩, ⟨3,4⟩, ⟨8,4⟩, ⟨1,5⟩, ⟨1,5⟩, ⟨1,5⟩, ⟨1,5⟩, ⟨1,5⟩, ⟨1,5⟩, ⟨3,5⟩, ⟨8,5⟩, ⟨1,6⟩,
    ⟨1,6⟩, ⟨1,6⟩, ⟨1,6⟩, ⟨1,6⟩, ⟨1,6⟩, ⟨1,6⟩, ⟨1,6⟩, ⟨3,6⟩, ⟨8,6⟩, ⟨1,7⟩, ⟨1,7⟩, ⟨1,7⟩, ⟨1,7⟩, ⟨1,7⟩,
    ⟨1,7⟩, ⟨1,7⟩, ⟨1,7⟩, ⟨1,7⟩, ⟨1,7⟩, ⟨3,7⟩, ⟨8,7⟩, ⟨1,8⟩, ⟨1,8⟩, ⟨1,8⟩, ⟨1,8⟩, ⟨1,8⟩, ⟨1,8⟩, ⟨1,8⟩,
    ⟨1,8⟩, ⟨1,8⟩, ⟨1,8⟩, ⟨1,8⟩, ⟨1,8⟩, ⟨1,8⟩, ⟨1,8⟩, ⟨1,8⟩, ⟨1,8⟩, ⟨1,8⟩, ⟨1,8⟩, ⟨1,8⟩, ⟨1,8⟩, ⟨1,8⟩,
    ⟨1,8⟩, ⟨1,8⟩, ⟨1,8⟩, ⟨3,8⟩, ⟨8,8⟩, ⟨1,9⟩, ⟨1,9⟩, ⟨1,9⟩, ⟨1,9⟩, ⟨1,9⟩, ⟨1,9⟩, ⟨1,9⟩, ⟨1,9⟩, ⟨1,9⟩,
    ⟨1,9⟩, ⟨1,9⟩, ⟨1,9⟩, ⟨1,9⟩, ⟨1,9⟩, ⟨1,9⟩, ⟨1,9⟩, ⟨1,9⟩, ⟨1,9⟩, ⟨1,9⟩, ⟨1,9⟩, ⟨1,9⟩, ⟨1,9⟩, ⟨1,9⟩,
    ⟨1,9⟩, ⟨3,9⟩, ⟨8,9⟩, ⟨1,10⟩, ⟨1,10⟩, ⟨1,10⟩, ⟨1,10⟩, ⟨1,10⟩, ⟨1,10⟩, ⟨3,10⟩, ⟨8,10⟩, ⟨1,11⟩, ⟨1,11⟩, ⟨1,11⟩,
    ⟨1,11⟩, ⟨1,11⟩, ⟨1,11⟩, ⟨3,11⟩, ⟨8,11⟩, ⟨1,12⟩, ⟨1,12⟩, ⟨1,12⟩, ⟨1,12⟩, ⟨1,12⟩, ⟨1,12⟩, ⟨3,12⟩, ⟨8,12⟩, ⟨1,13⟩,
    ⟨1,13⟩, ⟨1,13⟩, ⟨1,13⟩, ⟨1,13⟩, ⟨1,13⟩, ⟨3,13⟩, ⟨8,13⟩, ⟨1,14⟩, ⟨1,14⟩, ⟨1,14⟩, ⟨1,14⟩, ⟨1,14⟩, ⟨1,14⟩, ⟨1,14⟩,
    ⟨1,14⟩, ⟨3,14⟩, ⟨8,14⟩, ⟨1,15⟩, ⟨1,15⟩, ⟨1,15⟩, ⟨1,15⟩, ⟨1,15⟩, ⟨1,15⟩, ⟨1,15⟩, ⟨1,15⟩, ⟨3,15⟩, ⟨8,15⟩, ⟨1,16⟩,
    ⟨1,16⟩, ⟨1,16⟩, ⟨1,16⟩, ⟨1,16⟩, ⟨1,16⟩, ⟨1,16⟩, ⟨1,16⟩, ⟨1,16⟩, ⟨1,16⟩, ⟨1,16⟩, ⟨1,16⟩, ⟨3,16⟩, ⟨8,16⟩, ⟨1,17⟩,
    ⟨1,17⟩, ⟨1,17⟩, ⟨1,17⟩, ⟨1,17⟩, ⟨1,17⟩, ⟨3,17⟩, ⟨8,17⟩, ⟨1,18⟩, ⟨1,18⟩, ⟨1,18⟩, ⟨1,18⟩, ⟨1,18⟩, ⟨1,18⟩, ⟨3,18⟩,
    ⟨8,18⟩, ⟨1,19⟩, ⟨1,19⟩, ⟨1,19⟩, ⟨1,19⟩, ⟨1,19⟩, ⟨1,19⟩, ⟨1,19⟩, ⟨1,19⟩, ⟨1,19⟩, ⟨1,19⟩, ⟨1,19⟩, ⟨1,19⟩, ⟨1,19⟩,
    ⟨1,19⟩, ⟨1,19⟩, ⟨1,19⟩, ⟨1,19⟩, ⟨1,19⟩, ⟨1,19⟩, ⟨1,19⟩, ⟨1,19⟩, ⟨1,19⟩, ⟨1,19⟩, ⟨1,19⟩, ⟨3,19⟩, ⟨8,19⟩, ⟨1,20⟩,
    ⟨1,20⟩, ⟨1,21⟩, ⟨1,21⟩, ⟨1,22⟩, ⟨1,22⟩, ⟨1,23⟩, ⟨1,23⟩, ⟨1,24⟩, ⟨1,24⟩, ⟨1,25⟩, ⟨1,25⟩, ⟨1,26⟩, ⟨1,26⟩, ⟨1,26⟩,
    ⟨1,27⟩, ⟨1,27⟩, ⟨1,28⟩, ⟨1,28⟩, ⟨1,28⟩, ⟨1,29⟩, ⟨1,29⟩, ⟨1,30⟩, ⟨1,30⟩, ⟨1,30⟩, ⟨1,31⟩, ⟨1,31⟩, ⟨1,32⟩, ⟨1,32⟩,
    ⟨1,33⟩, ⟨1,33⟩, ⟨1,34⟩, ⟨4,34⟩, ⟨8,34⟩, ⟨11,34⟩, ⟨12,34⟩, ⟨1,34⟩, ⟨1,34⟩, ⟨4,34⟩, ⟨8,34⟩, ⟨11,34⟩, ⟨12,34⟩, ⟨1,35⟩,
    ⟨1,35⟩, ⟨1,35⟩, ⟨4,35⟩, ⟨8,35⟩, ⟨11,35⟩, ⟨12,35⟩, ⟨1,36⟩, ⟨4,36⟩, ⟨8,36⟩, ⟨11,36⟩, ⟨12,36⟩, ⟨1,37⟩, ⟨1,37⟩, ⟨1,38⟩,
    ⟨1,38⟩, ⟨1,39⟩, ⟨4,39⟩, ⟨8,39⟩, ⟨11,39⟩, ⟨12,39⟩, ⟨1,39⟩, ⟨1,39⟩, ⟨1,40⟩, ⟨1,40⟩, ⟨3,40⟩, ⟨8,40⟩, ⟨1,41⟩, ⟨1,41⟩,
    ⟨5,41⟩, ⟨8,41⟩, ⟨10,41⟩, ⟨12,41⟩, ⟨9,41⟩, ⟨1,41⟩, ⟨1,41⟩, ⟨1,42⟩, ⟨1,42⟩, ⟨5,42⟩, ⟨8,42⟩, ⟨10,42⟩, ⟨12,42⟩, ⟨9,42⟩,
    ⟨1,42⟩, ⟨1,42⟩, ⟨1,43⟩, ⟨1,43⟩, ⟨4,43⟩, ⟨8,43⟩, ⟨11,43⟩, ⟨12,43⟩, ⟨1,44⟩, ⟨1,44⟩, ⟨1,45⟩, ⟨1,45⟩, ⟨5,45⟩, ⟨8,45⟩,
    ⟨10,45⟩, ⟨12,45⟩, ⟨9,45⟩, ⟨1,45⟩, ⟨1,45⟩, ⟨1,46⟩, ⟨1,46⟩, ⟨5,46⟩, ⟨8,46⟩, ⟨10,46⟩, ⟨12,46⟩, ⟨9,46⟩, ⟨1,46⟩, ⟨1,46⟩,
    ⟨1,47⟩, ⟨1,47⟩, ⟨1,47⟩, ⟨1,47⟩, ⟨1,47⟩, ⟨1,47⟩, ⟨1,47⟩, ⟨1,47⟩, ⟨1,47⟩, ⟨1,47⟩, ⟨1,47⟩, ⟨1,48⟩, ⟨1,48⟩, ⟨1,48⟩,
    ⟨1,48⟩, ⟨1,48⟩, ⟨1,48⟩, ⟨1,48⟩, ⟨1,48⟩, ⟨1,48⟩, ⟨1,48⟩, ⟨1,48⟩, ⟨1,48⟩, ⟨1,48⟩, ⟨1,48⟩, ⟨1,48⟩, ⟨1,48⟩, ⟨1,48⟩,
    ⟨1,48⟩, ⟨1,48⟩, ⟨1,48⟩]
  edges := [
    (0, .eps 1), (0, .eps 3), (0, .eps 5), (0, .eps 7), (0, .eps 9),
    (0, .eps 11), (0, .eps 13), (0, .eps 15), (0, .eps 17), (0, .eps 19),
    (0, .eps 21), (0, .eps 23), (0, .eps 25), (0, .eps 27), (0, .eps 29),
    (0, .eps 31), (0, .eps 33), (0, .eps 35), (0, .eps 37), (0, .eps 39),
    (0, .eps 41), (0, .eps 43), (0, .eps 45), (0, .eps 47), (0, .eps 49),
    (0, .eps 51), (0, .eps 53), (0, .eps 55), (0, .eps 57), (0, .eps 59),
    (0, .eps 61), (0, .eps 63), (0, .eps 65), (0, .eps 67), (0, .eps 69),
    (0, .eps 71), (0, .eps 73), (0, .eps 75), (0, .eps 77), (0, .eps 79),
    (0, .eps 81), (0, .eps 83), (0, .eps 85), (0, .eps 87), (0, .eps 89),
    (0, .eps 91), (0, .eps 93), (1, .eps 99), (3, .eps 105), (5, .eps 111),
    (7, .eps 121), (9, .eps 129), (11, .eps 137), (13, .eps 147), (15, .eps 159),
    (17, .eps 185), (19, .eps 211), (21, .eps 219), (23, .eps 227), (25, .eps 235),
    (27, .eps 243), (29, .eps 253), (31, .eps 263), (33, .eps 277), (35, .eps 285),
    (37, .eps 293), (39, .eps 319), (41, .eps 321), (43, .eps 323), (45, .eps 325),
    (47, .eps 327), (49, .eps 329), (51, .eps 331), (53, .eps 333), (55, .eps 336),
    (57, .eps 338), (59, .eps 341), (61, .eps 343), (63, .eps 346), (65, .eps 348),
    (67, .eps 350), (69, .eps 353), (71, .eps 363), (73, .eps 371), (75, .eps 375),
    (77, .eps 377), (79, .eps 380), (81, .eps 388), (83, .eps 390), (85, .eps 399),
    (87, .eps 410), (89, .eps 414), (91, .eps 416), (93, .eps 425), (95, .eps 434),
    (97, .eps 445), (99, .atom 44 100), (100, .eps 2), (101, .atom 73 102), (102, .atom 78 106),
    (103, .atom 105 104), (104, .atom 110 106), (105, .eps 101), (105, .eps 103), (106, .eps 4),
    (107, .atom 84 108), (108, .atom 79 112), (109, .atom 116 110), (110, .atom 111 112), (111, .eps 107),
    (111, .eps 109), (112, .eps 6), (113, .atom 65 114), (114, .atom 78 115), (115, .atom 68 122),
    (116, .atom 97 117), (117, .atom 110 118), (118, .atom 100 122), (119, .atom 38 120), (120, .atom 38 122),
    (121, .eps 113), (121, .eps 116), (121, .eps 119), (122, .eps 8), (123, .atom 79 124),
    (124, .atom 82 130), (125, .atom 111 126), (126, .atom 114 130), (127, .atom 124 128), (128, .atom 124 130),
    (129, .eps 123), (129, .eps 125), (129, .eps 127), (130, .eps 10), (131, .atom 78 132),
    (132, .atom 79 133), (133, .atom 84 138), (134, .atom 110 135), (135, .atom 111 136), (136, .atom 116 138),
    (137, .eps 131), (137, .eps 134), (138, .eps 12), (139, .atom 84 140), (140, .atom 82 141),
    (141, .atom 85 142), (142, .atom 69 148), (143, .atom 116 144), (144, .atom 114 145), (145, .atom 117 146),
    (146, .atom 101 148), (147, .eps 139), (147, .eps 143), (148, .eps 14), (149, .atom 70 150),
    (150, .atom 65 151), (151, .atom 76 152), (152, .atom 83 153), (153, .atom 69 160), (154, .atom 102 155),
    (155, .atom 97 156), (156, .atom 108 157), (157, .atom 115 158), (158, .atom 101 160), (159, .eps 149),
    (159, .eps 154), (160, .eps 16), (161, .atom 67 162), (162, .atom 79 163), (163, .atom 78 164),
    (164, .atom 84 165), (165, .atom 65 166), (166, .atom 73 167), (167, .atom 78 168), (168, .atom 83 169),
    (169, .atom 95 170), (170, .atom 65 171), (171, .atom 76 172), (172, .atom 76 186), (173, .atom 99 174),
    (174, .atom 111 175), (175, .atom 110 176), (176, .atom 116 177), (177, .atom 97 178), (178, .atom 105 179),
    (179, .atom 110 180), (180, .atom 115 181), (181, .atom 95 182), (182, .atom 97 183), (183, .atom 108 184),
    (184, .atom 108 186), (185, .eps 161), (185, .eps 173), (186, .eps 18), (187, .atom 67 188),
    (188, .atom 79 189), (189, .atom 78 190), (190, .atom 84 191), (191, .atom 65 192), (192, .atom 73 193),
    (193, .atom 78 194), (194, .atom 83 195), (195, .atom 95 196), (196, .atom 65 197), (197, .atom 78 198),
    (198, .atom 89 212), (199, .atom 99 200), (200, .atom 111 201), (201, .atom 110 202), (202, .atom 116 203),
    (203, .atom 97 204), (204, .atom 105 205), (205, .atom 110 206), (206, .atom 115 207), (207, .atom 95 208),
    (208, .atom 97 209), (209, .atom 110 210), (210, .atom 121 212), (211, .eps 187), (211, .eps 199),
    (212, .eps 20), (213, .atom 77 214), (214, .atom 73 215), (215, .atom 78 220), (216, .atom 109 217),
    (217, .atom 105 218), (218, .atom 110 220), (219, .eps 213), (219, .eps 216), (220, .eps 22),
    (221, .atom 77 222), (222, .atom 65 223), (223, .atom 88 228), (224, .atom 109 225), (225, .atom 97 226),
    (226, .atom 120 228), (227, .eps 221), (227, .eps 224), (228, .eps 24), (229, .atom 65 230),
    (230, .atom 86 231), (231, .atom 71 236), (232, .atom 97 233), (233, .atom 118 234), (234, .atom 103 236),
    (235, .eps 229), (235, .eps 232), (236, .eps 26), (237, .atom 83 238), (238, .atom 85 239),
    (239, .atom 77 244), (240, .atom 115 241), (241, .atom 117 242), (242, .atom 109 244), (243, .eps 237),
    (243, .eps 240), (244, .eps 28), (245, .atom 77 246), (246, .atom 69 247), (247, .atom 65 248),
    (248, .atom 78 254), (249, .atom 109 250), (250, .atom 101 251), (251, .atom 97 252), (252, .atom 110 254),
    (253, .eps 245), (253, .eps 249), (254, .eps 30), (255, .atom 77 256), (256, .atom 79 257),
    (257, .atom 68 258), (258, .atom 69 264), (259, .atom 109 260), (260, .atom 111 261), (261, .atom 100 262),
    (262, .atom 101 264), (263, .eps 255), (263, .eps 259), (264, .eps 32), (265, .atom 77 266),
    (266, .atom 69 267), (267, .atom 68 268), (268, .atom 73 269), (269, .atom 65 270), (270, .atom 78 278),
    (271, .atom 109 272), (272, .atom 101 273), (273, .atom 100 274), (274, .atom 105 275), (275, .atom 97 276),
    (276, .atom 110 278), (277, .eps 265), (277, .eps 271), (278, .eps 34), (279, .atom 76 280),
    (280, .atom 69 281), (281, .atom 78 286), (282, .atom 108 283), (283, .atom 101 284), (284, .atom 110 286),
    (285, .eps 279), (285, .eps 282), (286, .eps 36), (287, .atom 73 288), (288, .atom 78 289),
    (289, .atom 84 294), (290, .atom 105 291), (291, .atom 110 292), (292, .atom 116 294), (293, .eps 287),
    (293, .eps 290), (294, .eps 38), (295, .atom 68 296), (296, .atom 65 297), (297, .atom 89 298),
    (298, .atom 83 299), (299, .atom 95 300), (300, .atom 69 301), (301, .atom 76 302), (302, .atom 65 303),
    (303, .atom 80 304), (304, .atom 83 305), (305, .atom 69 306), (306, .atom 68 320), (307, .atom 100 308),
    (308, .atom 97 309), (309, .atom 121 310), (310, .atom 115 311), (311, .atom 95 312), (312, .atom 101 313),
    (313, .atom 108 314), (314, .atom 97 315), (315, .atom 112 316), (316, .atom 115 317), (317, .atom 101 318),
    (318, .atom 100 320), (319, .eps 295), (319, .eps 307), (320, .eps 40), (321, .atom 43 322),
    (322, .eps 42), (323, .atom 45 324), (324, .eps 44), (325, .atom 42 326), (326, .eps 46),
    (327, .atom 47 328), (328, .eps 48), (329, .atom 37 330), (330, .eps 50), (331, .atom 94 332),
    (332, .eps 52), (333, .atom 33 334), (334, .atom 61 335), (335, .eps 54), (336, .atom 62 337),
    (337, .eps 56), (338, .atom 62 339), (339, .atom 61 340), (340, .eps 58), (341, .atom 60 342),
    (342, .eps 60), (343, .atom 60 344), (344, .atom 61 345), (345, .eps 62), (346, .atom 61 347),
    (347, .eps 64), (348, .atom 40 349), (349, .eps 66), (350, .atom 41 351), (351, .eps 68),
    (352, .set [(48,57)] 354), (353, .eps 352), (354, .eps 355), (355, .eps 353), (355, .eps 356),
    (356, .eps 357), (357, .atom 46 359), (358, .set [(48,57)] 360), (359, .eps 358), (360, .eps 361),
    (361, .eps 359), (361, .eps 362), (362, .eps 70), (363, .set [(48,57)] 366), (364, .atom 46 365),
    (365, .rule 73 367 0), (366, .eps 364), (367, .eps 368), (368, .eps 366), (368, .eps 369),
    (369, .eps 72), (370, .set [(48,57)] 372), (371, .eps 370), (372, .eps 373), (373, .eps 371),
    (373, .eps 374), (374, .eps 74), (375, .rule 95 376 0), (376, .eps 76), (377, .rule 97 378 0),
    (378, .eps 78), (379, .set [(9,10), (12,13), (32,32)] 381), (380, .eps 379), (381, .eps 382), (382, .eps 380),
    (382, .eps 383), (383, .eps 384), (384, .action 0 385), (385, .eps 80), (386, .rule 83 389 0),
    (387, .rule 85 389 0), (388, .eps 386), (388, .eps 387), (389, .eps 82), (390, .atom 39 394),
    (391, .wildcard 393), (392, .eps 391), (393, .eps 396), (394, .eps 395), (394, .eps 392),
    (395, .eps 397), (396, .eps 394), (397, .atom 39 398), (398, .eps 84), (399, .atom 34 403),
    (400, .wildcard 402), (401, .eps 400), (402, .eps 405), (403, .eps 404), (403, .eps 401),
    (404, .eps 406), (405, .eps 403), (406, .atom 34 407), (407, .eps 86), (408, .rule 89 411 0),
    (409, .set [(46,46), (95,95)] 411), (410, .eps 408), (410, .eps 409), (411, .eps 412), (412, .eps 410),
    (412, .eps 413), (413, .eps 88), (414, .set [(48,57), (65,90), (97,122)] 415), (415, .eps 90), (416, .atom 39 420),
    (417, .wildcard 419), (418, .eps 417), (419, .eps 422), (420, .eps 421), (420, .eps 418),
    (421, .eps 423), (422, .eps 420), (423, .atom 39 424), (424, .eps 92), (425, .atom 34 429),
    (426, .wildcard 428), (427, .eps 426), (428, .eps 431), (429, .eps 430), (429, .eps 427),
    (430, .eps 432), (431, .eps 429), (432, .atom 34 433), (433, .eps 94), (434, .set [(48,57)] 435),
    (435, .set [(48,57)] 436), (436, .set [(48,57)] 437), (437, .set [(48,57)] 438), (438, .atom 45 439), (439, .set [(48,57)] 440),
    (440, .set [(48,57)] 441), (441, .atom 45 442), (442, .set [(48,57)] 443), (443, .set [(48,57)] 444), (444, .eps 96),
    (445, .set [(48,57)] 446), (446, .set [(48,57)] 447), (447, .set [(48,57)] 448), (448, .set [(48,57)] 449), (449, .atom 45 450),
    (450, .set [(48,57)] 451), (451, .set [(48,57)] 452), (452, .atom 45 453), (453, .set [(48,57)] 454), (454, .set [(48,57)] 455),
    (455, .atom 32 456), (456, .set [(48,57)] 457), (457, .set [(48,57)] 458), (458, .atom 58 459), (459, .set [(48,57)] 460),
    (460, .set [(48,57)] 461), (461, .atom 58 462), (462, .set [(48,57)] 463), (463, .set [(48,57)] 464), (464, .eps 98)]

/-- Rule 1. -/
def dfa1 : List DRow := [
    ⟨[⟨99,1,[],false,[]⟩], false, [(44,44,1)]⟩,
    ⟨[⟨2,1,[],false,[]⟩], true, []⟩]

/-- Rule 2. -/
def dfa2 : List DRow := [
    ⟨[⟨101,2,[],false,[]⟩, ⟨103,2,[],false,[]⟩], false, [(73,73,1), (105,105,2)]⟩,
    ⟨[⟨102,2,[],false,[]⟩], false, [(78,78,3)]⟩,
    ⟨[⟨104,2,[],false,[]⟩], false, [(110,110,3)]⟩,
    ⟨[⟨4,2,[],false,[]⟩], true, []⟩]

/-- Rule 3. -/
def dfa3 : List DRow := [
    ⟨[⟨107,3,[],false,[]⟩, ⟨109,3,[],false,[]⟩], false, [(84,84,1), (116,116,2)]⟩,
    ⟨[⟨108,3,[],false,[]⟩], false, [(79,79,3)]⟩,
    ⟨[⟨110,3,[],false,[]⟩], false, [(111,111,3)]⟩,
    ⟨[⟨6,3,[],false,[]⟩], true, []⟩]

/-- Rule 4. -/
def dfa4 : List DRow := [
    ⟨[⟨113,4,[],false,[]⟩, ⟨116,4,[],false,[]⟩, ⟨119,4,[],false,[]⟩], false, [(38,38,1), (65,65,2), (97,97,3)]⟩,
    ⟨[⟨120,4,[],false,[]⟩], false, [(38,38,4)]⟩,
    ⟨[⟨114,4,[],false,[]⟩], false, [(78,78,5)]⟩,
    ⟨[⟨117,4,[],false,[]⟩], false, [(110,110,6)]⟩,
    ⟨[⟨8,4,[],false,[]⟩], true, []⟩,
    ⟨[⟨115,4,[],false,[]⟩], false, [(68,68,4)]⟩,
    ⟨[⟨118,4,[],false,[]⟩], false, [(100,100,4)]⟩]

/-- Rule 5. -/
def dfa5 : List DRow := [
    ⟨[⟨123,5,[],false,[]⟩, ⟨125,5,[],false,[]⟩, ⟨127,5,[],false,[]⟩], false, [(79,79,1), (111,111,2), (124,124,3)]⟩,
    ⟨[⟨124,5,[],false,[]⟩], false, [(82,82,4)]⟩,
    ⟨[⟨126,5,[],false,[]⟩], false, [(114,114,4)]⟩,
    ⟨[⟨128,5,[],false,[]⟩], false, [(124,124,4)]⟩,
    ⟨[⟨10,5,[],false,[]⟩], true, []⟩]

/-- Rule 6. -/
def dfa6 : List DRow := [
    ⟨[⟨131,6,[],false,[]⟩, ⟨134,6,[],false,[]⟩], false, [(78,78,1), (110,110,2)]⟩,
    ⟨[⟨132,6,[],false,[]⟩], false, [(79,79,3)]⟩,
    ⟨[⟨135,6,[],false,[]⟩], false, [(111,111,4)]⟩,
    ⟨[⟨133,6,[],false,[]⟩], false, [(84,84,5)]⟩,
    ⟨[⟨136,6,[],false,[]⟩], false, [(116,116,5)]⟩,
    ⟨[⟨12,6,[],false,[]⟩], true, []⟩]

/-- Rule 7. -/
def dfa7 : List DRow := [
    ⟨[⟨139,7,[],false,[]⟩, ⟨143,7,[],false,[]⟩], false, [(84,84,1), (116,116,2)]⟩,
    ⟨[⟨140,7,[],false,[]⟩], false, [(82,82,3)]⟩,
    ⟨[⟨144,7,[],false,[]⟩], false, [(114,114,4)]⟩,
    ⟨[⟨141,7,[],false,[]⟩], false, [(85,85,5)]⟩,
    ⟨[⟨145,7,[],false,[]⟩], false, [(117,117,6)]⟩,
    ⟨[⟨142,7,[],false,[]⟩], false, [(69,69,7)]⟩,
    ⟨[⟨146,7,[],false,[]⟩], false, [(101,101,7)]⟩,
    ⟨[⟨14,7,[],false,[]⟩], true, []⟩]

/-- Rule 8. -/
def dfa8 : List DRow := [
    ⟨[⟨149,8,[],false,[]⟩, ⟨154,8,[],false,[]⟩], false, [(70,70,1), (102,102,2)]⟩,
    ⟨[⟨150,8,[],false,[]⟩], false, [(65,65,3)]⟩,
    ⟨[⟨155,8,[],false,[]⟩], false, [(97,97,4)]⟩,
    ⟨[⟨151,8,[],false,[]⟩], false, [(76,76,5)]⟩,
    ⟨[⟨156,8,[],false,[]⟩], false, [(108,108,6)]⟩,
    ⟨[⟨152,8,[],false,[]⟩], false, [(83,83,7)]⟩,
    ⟨[⟨157,8,[],false,[]⟩], false, [(115,115,8)]⟩,
    ⟨[⟨153,8,[],false,[]⟩], false, [(69,69,9)]⟩,
    ⟨[⟨158,8,[],false,[]⟩], false, [(101,101,9)]⟩,
    ⟨[⟨16,8,[],false,[]⟩], true, []⟩]

/-- Rule 9. -/
def dfa9 : List DRow := [
    ⟨[⟨161,9,[],false,[]⟩, ⟨173,9,[],false,[]⟩], false, [(67,67,1), (99,99,2)]⟩,
    ⟨[⟨162,9,[],false,[]⟩], false, [(79,79,3)]⟩,
    ⟨[⟨174,9,[],false,[]⟩], false, [(111,111,4)]⟩,
    ⟨[⟨163,9,[],false,[]⟩], false, [(78,78,5)]⟩,
    ⟨[⟨175,9,[],false,[]⟩], false, [(110,110,6)]⟩,
    ⟨[⟨164,9,[],false,[]⟩], false, [(84,84,7)]⟩,
    ⟨[⟨176,9,[],false,[]⟩], false, [(116,116,8)]⟩,
    ⟨[⟨165,9,[],false,[]⟩], false, [(65,65,9)]⟩,
    ⟨[⟨177,9,[],false,[]⟩], false, [(97,97,10)]⟩,
    ⟨[⟨166,9,[],false,[]⟩], false, [(73,73,11)]⟩,
    ⟨[⟨178,9,[],false,[]⟩], false, [(105,105,12)]⟩,
    ⟨[⟨167,9,[],false,[]⟩], false, [(78,78,13)]⟩,
    ⟨[⟨179,9,[],false,[]⟩], false, [(110,110,14)]⟩,
    ⟨[⟨168,9,[],false,[]⟩], false, [(83,83,15)]⟩,
    ⟨[⟨180,9,[],false,[]⟩], false, [(115,115,16)]⟩,
    ⟨[⟨169,9,[],false,[]⟩], false, [(95,95,17)]⟩,
    ⟨[⟨181,9,[],false,[]⟩], false, [(95,95,18)]⟩,
    ⟨[⟨170,9,[],false,[]⟩], false, [(65,65,19)]⟩,
    ⟨[⟨182,9,[],false,[]⟩], false, [(97,97,20)]⟩,
    ⟨[⟨171,9,[],false,[]⟩], false, [(76,76,21)]⟩,
    ⟨[⟨183,9,[],false,[]⟩], false, [(108,108,22)]⟩,
    ⟨[⟨172,9,[],false,[]⟩], false, [(76,76,23)]⟩,
    ⟨[⟨184,9,[],false,[]⟩], false, [(108,108,23)]⟩,
    ⟨[⟨18,9,[],false,[]⟩], true, []⟩]

/-- Rule 10. -/
def dfa10 : List DRow := [
    ⟨[⟨187,10,[],false,[]⟩, ⟨199,10,[],false,[]⟩], false, [(67,67,1), (99,99,2)]⟩,
    ⟨[⟨188,10,[],false,[]⟩], false, [(79,79,3)]⟩,
    ⟨[⟨200,10,[],false,[]⟩], false, [(111,111,4)]⟩,
    ⟨[⟨189,10,[],false,[]⟩], false, [(78,78,5)]⟩,
    ⟨[⟨201,10,[],false,[]⟩], false, [(110,110,6)]⟩,
    ⟨[⟨190,10,[],false,[]⟩], false, [(84,84,7)]⟩,
    ⟨[⟨202,10,[],false,[]⟩], false, [(116,116,8)]⟩,
    ⟨[⟨191,10,[],false,[]⟩], false, [(65,65,9)]⟩,
    ⟨[⟨203,10,[],false,[]⟩], false, [(97,97,10)]⟩,
    ⟨[⟨192,10,[],false,[]⟩], false, [(73,73,11)]⟩,
    ⟨[⟨204,10,[],false,[]⟩], false, [(105,105,12)]⟩,
    ⟨[⟨193,10,[],false,[]⟩], false, [(78,78,13)]⟩,
    ⟨[⟨205,10,[],false,[]⟩], false, [(110,110,14)]⟩,
    ⟨[⟨194,10,[],false,[]⟩], false, [(83,83,15)]⟩,
    ⟨[⟨206,10,[],false,[]⟩], false, [(115,115,16)]⟩,
    ⟨[⟨195,10,[],false,[]⟩], false, [(95,95,17)]⟩,
    ⟨[⟨207,10,[],false,[]⟩], false, [(95,95,18)]⟩,
    ⟨[⟨196,10,[],false,[]⟩], false, [(65,65,19)]⟩,
    ⟨[⟨208,10,[],false,[]⟩], false, [(97,97,20)]⟩,
    ⟨[⟨197,10,[],false,[]⟩], false, [(78,78,21)]⟩,
    ⟨[⟨209,10,[],false,[]⟩], false, [(110,110,22)]⟩,
    ⟨[⟨198,10,[],false,[]⟩], false, [(89,89,23)]⟩,
    ⟨[⟨210,10,[],false,[]⟩], false, [(121,121,23)]⟩,
    ⟨[⟨20,10,[],false,[]⟩], true, []⟩]

/-- Rule 11. -/
def dfa11 : List DRow := [
    ⟨[⟨213,11,[],false,[]⟩, ⟨216,11,[],false,[]⟩], false, [(77,77,1), (109,109,2)]⟩,
    ⟨[⟨214,11,[],false,[]⟩], false, [(73,73,3)]⟩,
    ⟨[⟨217,11,[],false,[]⟩], false, [(105,105,4)]⟩,
    ⟨[⟨215,11,[],false,[]⟩], false, [(78,78,5)]⟩,
    ⟨[⟨218,11,[],false,[]⟩], false, [(110,110,5)]⟩,
    ⟨[⟨22,11,[],false,[]⟩], true, []⟩]

/-- Rule 12. -/
def dfa12 : List DRow := [
    ⟨[⟨221,12,[],false,[]⟩, ⟨224,12,[],false,[]⟩], false, [(77,77,1), (109,109,2)]⟩,
    ⟨[⟨222,12,[],false,[]⟩], false, [(65,65,3)]⟩,
    ⟨[⟨225,12,[],false,[]⟩], false, [(97,97,4)]⟩,
    ⟨[⟨223,12,[],false,[]⟩], false, [(88,88,5)]⟩,
    ⟨[⟨226,12,[],false,[]⟩], false, [(120,120,5)]⟩,
    ⟨[⟨24,12,[],false,[]⟩], true, []⟩]

/-- Rule 13. -/
def dfa13 : List DRow := [
    ⟨[⟨229,13,[],false,[]⟩, ⟨232,13,[],false,[]⟩], false, [(65,65,1), (97,97,2)]⟩,
    ⟨[⟨230,13,[],false,[]⟩], false, [(86,86,3)]⟩,
    ⟨[⟨233,13,[],false,[]⟩], false, [(118,118,4)]⟩,
    ⟨[⟨231,13,[],false,[]⟩], false, [(71,71,5)]⟩,
    ⟨[⟨234,13,[],false,[]⟩], false, [(103,103,5)]⟩,
    ⟨[⟨26,13,[],false,[]⟩], true, []⟩]

/-- Rule 14. -/
def dfa14 : List DRow := [
    ⟨[⟨237,14,[],false,[]⟩, ⟨240,14,[],false,[]⟩], false, [(83,83,1), (115,115,2)]⟩,
    ⟨[⟨238,14,[],false,[]⟩], false, [(85,85,3)]⟩,
    ⟨[⟨241,14,[],false,[]⟩], false, [(117,117,4)]⟩,
    ⟨[⟨239,14,[],false,[]⟩], false, [(77,77,5)]⟩,
    ⟨[⟨242,14,[],false,[]⟩], false, [(109,109,5)]⟩,
    ⟨[⟨28,14,[],false,[]⟩], true, []⟩]

/-- Rule 15. -/
def dfa15 : List DRow := [
    ⟨[⟨245,15,[],false,[]⟩, ⟨249,15,[],false,[]⟩], false, [(77,77,1), (109,109,2)]⟩,
    ⟨[⟨246,15,[],false,[]⟩], false, [(69,69,3)]⟩,
    ⟨[⟨250,15,[],false,[]⟩], false, [(101,101,4)]⟩,
    ⟨[⟨247,15,[],false,[]⟩], false, [(65,65,5)]⟩,
    ⟨[⟨251,15,[],false,[]⟩], false, [(97,97,6)]⟩,
    ⟨[⟨248,15,[],false,[]⟩], false, [(78,78,7)]⟩,
    ⟨[⟨252,15,[],false,[]⟩], false, [(110,110,7)]⟩,
    ⟨[⟨30,15,[],false,[]⟩], true, []⟩]

/-- Rule 16. -/
def dfa16 : List DRow := [
    ⟨[⟨255,16,[],false,[]⟩, ⟨259,16,[],false,[]⟩], false, [(77,77,1), (109,109,2)]⟩,
    ⟨[⟨256,16,[],false,[]⟩], false, [(79,79,3)]⟩,
    ⟨[⟨260,16,[],false,[]⟩], false, [(111,111,4)]⟩,
    ⟨[⟨257,16,[],false,[]⟩], false, [(68,68,5)]⟩,
    ⟨[⟨261,16,[],false,[]⟩], false, [(100,100,6)]⟩,
    ⟨[⟨258,16,[],false,[]⟩], false, [(69,69,7)]⟩,
    ⟨[⟨262,16,[],false,[]⟩], false, [(101,101,7)]⟩,
    ⟨[⟨32,16,[],false,[]⟩], true, []⟩]

/-- Rule 17. -/
def dfa17 : List DRow := [
    ⟨[⟨265,17,[],false,[]⟩, ⟨271,17,[],false,[]⟩], false, [(77,77,1), (109,109,2)]⟩,
    ⟨[⟨266,17,[],false,[]⟩], false, [(69,69,3)]⟩,
    ⟨[⟨272,17,[],false,[]⟩], false, [(101,101,4)]⟩,
    ⟨[⟨267,17,[],false,[]⟩], false, [(68,68,5)]⟩,
    ⟨[⟨273,17,[],false,[]⟩], false, [(100,100,6)]⟩,
    ⟨[⟨268,17,[],false,[]⟩], false, [(73,73,7)]⟩,
    ⟨[⟨274,17,[],false,[]⟩], false, [(105,105,8)]⟩,
    ⟨[⟨269,17,[],false,[]⟩], false, [(65,65,9)]⟩,
    ⟨[⟨275,17,[],false,[]⟩], false, [(97,97,10)]⟩,
    ⟨[⟨270,17,[],false,[]⟩], false, [(78,78,11)]⟩,
    ⟨[⟨276,17,[],false,[]⟩], false, [(110,110,11)]⟩,
    ⟨[⟨34,17,[],false,[]⟩], true, []⟩]

/-- Rule 18. -/
def dfa18 : List DRow := [
    ⟨[⟨279,18,[],false,[]⟩, ⟨282,18,[],false,[]⟩], false, [(76,76,1), (108,108,2)]⟩,
    ⟨[⟨280,18,[],false,[]⟩], false, [(69,69,3)]⟩,
    ⟨[⟨283,18,[],false,[]⟩], false, [(101,101,4)]⟩,
    ⟨[⟨281,18,[],false,[]⟩], false, [(78,78,5)]⟩,
    ⟨[⟨284,18,[],false,[]⟩], false, [(110,110,5)]⟩,
    ⟨[⟨36,18,[],false,[]⟩], true, []⟩]

/-- Rule 19. -/
def dfa19 : List DRow := [
    ⟨[⟨287,19,[],false,[]⟩, ⟨290,19,[],false,[]⟩], false, [(73,73,1), (105,105,2)]⟩,
    ⟨[⟨288,19,[],false,[]⟩], false, [(78,78,3)]⟩,
    ⟨[⟨291,19,[],false,[]⟩], false, [(110,110,4)]⟩,
    ⟨[⟨289,19,[],false,[]⟩], false, [(84,84,5)]⟩,
    ⟨[⟨292,19,[],false,[]⟩], false, [(116,116,5)]⟩,
    ⟨[⟨38,19,[],false,[]⟩], true, []⟩]

/-- Rule 20. -/
def dfa20 : List DRow := [
    ⟨[⟨295,20,[],false,[]⟩, ⟨307,20,[],false,[]⟩], false, [(68,68,1), (100,100,2)]⟩,
    ⟨[⟨296,20,[],false,[]⟩], false, [(65,65,3)]⟩,
    ⟨[⟨308,20,[],false,[]⟩], false, [(97,97,4)]⟩,
    ⟨[⟨297,20,[],false,[]⟩], false, [(89,89,5)]⟩,
    ⟨[⟨309,20,[],false,[]⟩], false, [(121,121,6)]⟩,
    ⟨[⟨298,20,[],false,[]⟩], false, [(83,83,7)]⟩,
    ⟨[⟨310,20,[],false,[]⟩], false, [(115,115,8)]⟩,
    ⟨[⟨299,20,[],false,[]⟩], false, [(95,95,9)]⟩,
    ⟨[⟨311,20,[],false,[]⟩], false, [(95,95,10)]⟩,
    ⟨[⟨300,20,[],false,[]⟩], false, [(69,69,11)]⟩,
    ⟨[⟨312,20,[],false,[]⟩], false, [(101,101,12)]⟩,
    ⟨[⟨301,20,[],false,[]⟩], false, [(76,76,13)]⟩,
    ⟨[⟨313,20,[],false,[]⟩], false, [(108,108,14)]⟩,
    ⟨[⟨302,20,[],false,[]⟩], false, [(65,65,15)]⟩,
    ⟨[⟨314,20,[],false,[]⟩], false, [(97,97,16)]⟩,
    ⟨[⟨303,20,[],false,[]⟩], false, [(80,80,17)]⟩,
    ⟨[⟨315,20,[],false,[]⟩], false, [(112,112,18)]⟩,
    ⟨[⟨304,20,[],false,[]⟩], false, [(83,83,19)]⟩,
    ⟨[⟨316,20,[],false,[]⟩], false, [(115,115,20)]⟩,
    ⟨[⟨305,20,[],false,[]⟩], false, [(69,69,21)]⟩,
    ⟨[⟨317,20,[],false,[]⟩], false, [(101,101,22)]⟩,
    ⟨[⟨306,20,[],false,[]⟩], false, [(68,68,23)]⟩,
    ⟨[⟨318,20,[],false,[]⟩], false, [(100,100,23)]⟩,
    ⟨[⟨40,20,[],false,[]⟩], true, []⟩]

/-- Rule 21. -/
def dfa21 : List DRow := [
    ⟨[⟨321,21,[],false,[]⟩], false, [(43,43,1)]⟩,
    ⟨[⟨42,21,[],false,[]⟩], true, []⟩]

/-- Rule 22. -/
def dfa22 : List DRow := [
    ⟨[⟨323,22,[],false,[]⟩], false, [(45,45,1)]⟩,
    ⟨[⟨44,22,[],false,[]⟩], true, []⟩]

/-- Rule 23. -/
def dfa23 : List DRow := [
    ⟨[⟨325,23,[],false,[]⟩], false, [(42,42,1)]⟩,
    ⟨[⟨46,23,[],false,[]⟩], true, []⟩]

/-- Rule 24. -/
def dfa24 : List DRow := [
    ⟨[⟨327,24,[],false,[]⟩], false, [(47,47,1)]⟩,
    ⟨[⟨48,24,[],false,[]⟩], true, []⟩]

/-- Rule 25. -/
def dfa25 : List DRow := [
    ⟨[⟨329,25,[],false,[]⟩], false, [(37,37,1)]⟩,
    ⟨[⟨50,25,[],false,[]⟩], true, []⟩]

/-- Rule 26. -/
def dfa26 : List DRow := [
    ⟨[⟨331,26,[],false,[]⟩], false, [(94,94,1)]⟩,
    ⟨[⟨52,26,[],false,[]⟩], true, []⟩]

/-- Rule 27. -/
def dfa27 : List DRow := [
    ⟨[⟨333,27,[],false,[]⟩], false, [(33,33,1)]⟩,
    ⟨[⟨334,27,[],false,[]⟩], false, [(61,61,2)]⟩,
    ⟨[⟨54,27,[],false,[]⟩], true, []⟩]

/-- Rule 28. -/
def dfa28 : List DRow := [
    ⟨[⟨336,28,[],false,[]⟩], false, [(62,62,1)]⟩,
    ⟨[⟨56,28,[],false,[]⟩], true, []⟩]

/-- Rule 29. -/
def dfa29 : List DRow := [
    ⟨[⟨338,29,[],false,[]⟩], false, [(62,62,1)]⟩,
    ⟨[⟨339,29,[],false,[]⟩], false, [(61,61,2)]⟩,
    ⟨[⟨58,29,[],false,[]⟩], true, []⟩]

/-- Rule 30. -/
def dfa30 : List DRow := [
    ⟨[⟨341,30,[],false,[]⟩], false, [(60,60,1)]⟩,
    ⟨[⟨60,30,[],false,[]⟩], true, []⟩]

/-- Rule 31. -/
def dfa31 : List DRow := [
    ⟨[⟨343,31,[],false,[]⟩], false, [(60,60,1)]⟩,
    ⟨[⟨344,31,[],false,[]⟩], false, [(61,61,2)]⟩,
    ⟨[⟨62,31,[],false,[]⟩], true, []⟩]

/-- Rule 32. -/
def dfa32 : List DRow := [
    ⟨[⟨346,32,[],false,[]⟩], false, [(61,61,1)]⟩,
    ⟨[⟨64,32,[],false,[]⟩], true, []⟩]

/-- Rule 33. -/
def dfa33 : List DRow := [
    ⟨[⟨348,33,[],false,[]⟩], false, [(40,40,1)]⟩,
    ⟨[⟨66,33,[],false,[]⟩], true, []⟩]

/-- Rule 34. -/
def dfa34 : List DRow := [
    ⟨[⟨350,34,[],false,[]⟩], false, [(41,41,1)]⟩,
    ⟨[⟨68,34,[],false,[]⟩], true, []⟩]

/-- Rule 35. -/
def dfa35 : List DRow := [
    ⟨[⟨352,35,[],false,[]⟩], false, [(48,57,1)]⟩,
    ⟨[⟨352,35,[],false,[]⟩, ⟨357,35,[],false,[]⟩], false, [(46,46,2), (48,57,1)]⟩,
    ⟨[⟨358,35,[],false,[]⟩], false, [(48,57,3)]⟩,
    ⟨[⟨358,35,[],false,[]⟩, ⟨70,35,[],false,[]⟩], true, [(48,57,3)]⟩]

/-- Rule 36. -/
def dfa36 : List DRow := [
    ⟨[⟨363,36,[],false,[]⟩], false, [(48,57,1)]⟩,
    ⟨[⟨364,36,[],false,[]⟩], false, [(46,46,2)]⟩,
    ⟨[⟨370,36,[367],false,[]⟩], false, [(48,57,3)]⟩,
    ⟨[⟨370,36,[367],false,[]⟩, ⟨364,36,[],false,[]⟩, ⟨72,36,[],false,[]⟩], true, [(46,46,2), (48,57,3)]⟩]

/-- Rule 37. -/
def dfa37 : List DRow := [
    ⟨[⟨370,37,[],false,[]⟩], false, [(48,57,1)]⟩,
    ⟨[⟨370,37,[],false,[]⟩, ⟨74,37,[],false,[]⟩], true, [(48,57,1)]⟩]

/-- Rule 38. -/
def dfa38 : List DRow := [
    ⟨[⟨434,38,[376],false,[]⟩], false, [(48,57,1)]⟩,
    ⟨[⟨435,38,[376],false,[]⟩], false, [(48,57,2)]⟩,
    ⟨[⟨436,38,[376],false,[]⟩], false, [(48,57,3)]⟩,
    ⟨[⟨437,38,[376],false,[]⟩], false, [(48,57,4)]⟩,
    ⟨[⟨438,38,[376],false,[]⟩], false, [(45,45,5)]⟩,
    ⟨[⟨439,38,[376],false,[]⟩], false, [(48,57,6)]⟩,
    ⟨[⟨440,38,[376],false,[]⟩], false, [(48,57,7)]⟩,
    ⟨[⟨441,38,[376],false,[]⟩], false, [(45,45,8)]⟩,
    ⟨[⟨442,38,[376],false,[]⟩], false, [(48,57,9)]⟩,
    ⟨[⟨443,38,[376],false,[]⟩], false, [(48,57,10)]⟩,
    ⟨[⟨76,38,[],false,[]⟩], true, []⟩]

/-- Rule 39. -/
def dfa39 : List DRow := [
    ⟨[⟨445,39,[378],false,[]⟩], false, [(48,57,1)]⟩,
    ⟨[⟨446,39,[378],false,[]⟩], false, [(48,57,2)]⟩,
    ⟨[⟨447,39,[378],false,[]⟩], false, [(48,57,3)]⟩,
    ⟨[⟨448,39,[378],false,[]⟩], false, [(48,57,4)]⟩,
    ⟨[⟨449,39,[378],false,[]⟩], false, [(45,45,5)]⟩,
    ⟨[⟨450,39,[378],false,[]⟩], false, [(48,57,6)]⟩,
    ⟨[⟨451,39,[378],false,[]⟩], false, [(48,57,7)]⟩,
    ⟨[⟨452,39,[378],false,[]⟩], false, [(45,45,8)]⟩,
    ⟨[⟨453,39,[378],false,[]⟩], false, [(48,57,9)]⟩,
    ⟨[⟨454,39,[378],false,[]⟩], false, [(48,57,10)]⟩,
    ⟨[⟨455,39,[378],false,[]⟩], false, [(32,32,11)]⟩,
    ⟨[⟨456,39,[378],false,[]⟩], false, [(48,57,12)]⟩,
    ⟨[⟨457,39,[378],false,[]⟩], false, [(48,57,13)]⟩,
    ⟨[⟨458,39,[378],false,[]⟩], false, [(58,58,14)]⟩,
    ⟨[⟨459,39,[378],false,[]⟩], false, [(48,57,15)]⟩,
    ⟨[⟨460,39,[378],false,[]⟩], false, [(48,57,16)]⟩,
    ⟨[⟨461,39,[378],false,[]⟩], false, [(58,58,17)]⟩,
    ⟨[⟨462,39,[378],false,[]⟩], false, [(48,57,18)]⟩,
    ⟨[⟨463,39,[378],false,[]⟩], false, [(48,57,19)]⟩,
    ⟨[⟨78,39,[],false,[]⟩], true, []⟩]

/-- Rule 40. -/
def dfa40 : List DRow := [
    ⟨[⟨379,40,[],false,[]⟩], false, [(9,10,1), (12,13,1), (32,32,1)]⟩,
    ⟨[⟨379,40,[],false,[]⟩, ⟨80,40,[],false,[0]⟩], true, [(9,10,1), (12,13,1), (32,32,1)]⟩]

/-- Rule 41. -/
def dfa41 : List DRow := [
    ⟨[⟨390,41,[389],false,[]⟩, ⟨399,41,[389],false,[]⟩], false, [(34,34,1), (39,39,2)]⟩,
    ⟨[⟨406,41,[389],true,[]⟩, ⟨400,41,[389],true,[]⟩], false, [(0,33,1), (34,34,3), (35,1114111,1)]⟩,
    ⟨[⟨397,41,[389],true,[]⟩, ⟨391,41,[389],true,[]⟩], false, [(0,38,2), (39,39,3), (40,1114111,2)]⟩,
    ⟨[⟨82,41,[],true,[]⟩], true, []⟩]

/-- Rule 42. -/
def dfa42 : List DRow := [
    ⟨[⟨390,42,[],false,[]⟩], false, [(39,39,1)]⟩,
    ⟨[⟨397,42,[],true,[]⟩, ⟨391,42,[],true,[]⟩], false, [(0,38,1), (39,39,2), (40,1114111,1)]⟩,
    ⟨[⟨84,42,[],true,[]⟩], true, []⟩]

/-- Rule 43. -/
def dfa43 : List DRow := [
    ⟨[⟨399,43,[],false,[]⟩], false, [(34,34,1)]⟩,
    ⟨[⟨406,43,[],true,[]⟩, ⟨400,43,[],true,[]⟩], false, [(0,33,1), (34,34,2), (35,1114111,1)]⟩,
    ⟨[⟨86,43,[],true,[]⟩], true, []⟩]

/-- Rule 44. -/
def dfa44 : List DRow := [
    ⟨[⟨414,44,[411],false,[]⟩, ⟨409,44,[],false,[]⟩], false, [(46,46,1), (48,57,1), (65,90,1), (95,95,1), (97,122,1)]⟩,
    ⟨[⟨414,44,[411],false,[]⟩, ⟨409,44,[],false,[]⟩, ⟨88,44,[],false,[]⟩], true, [(46,46,1), (48,57,1), (65,90,1), (95,95,1), (97,122,1)]⟩]

/-- Rule 45. -/
def dfa45 : List DRow := [
    ⟨[⟨414,45,[],false,[]⟩], false, [(48,57,1), (65,90,1), (97,122,1)]⟩,
    ⟨[⟨90,45,[],false,[]⟩], true, []⟩]

/-- Rule 46. -/
def dfa46 : List DRow := [
    ⟨[⟨416,46,[],false,[]⟩], false, [(39,39,1)]⟩,
    ⟨[⟨423,46,[],true,[]⟩, ⟨417,46,[],true,[]⟩], false, [(0,38,1), (39,39,2), (40,1114111,1)]⟩,
    ⟨[⟨92,46,[],true,[]⟩], true, []⟩]

/-- Rule 47. -/
def dfa47 : List DRow := [
    ⟨[⟨425,47,[],false,[]⟩], false, [(34,34,1)]⟩,
    ⟨[⟨432,47,[],true,[]⟩, ⟨426,47,[],true,[]⟩], false, [(0,33,1), (34,34,2), (35,1114111,1)]⟩,
    ⟨[⟨94,47,[],true,[]⟩], true, []⟩]

/-- One automaton for each rule. -/
def lexerDfa : List (List DRow) := [
    dfa1, dfa2, dfa3, dfa4, dfa5, dfa6, dfa7, dfa8,
    dfa9, dfa10, dfa11, dfa12, dfa13, dfa14, dfa15, dfa16,
    dfa17, dfa18, dfa19, dfa20, dfa21, dfa22, dfa23, dfa24,
    dfa25, dfa26, dfa27, dfa28, dfa29, dfa30, dfa31, dfa32,
    dfa33, dfa34, dfa35, dfa36, dfa37, dfa38, dfa39, dfa40,
    dfa41, dfa42, dfa43, dfa44, dfa45, dfa46, dfa47]

end BoolParser

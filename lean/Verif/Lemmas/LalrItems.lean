import Verif.Model.LalrTables
/-!
# The items of the states of the parser's automaton

For every state of `LalrTables.lean`: the productions that the parser may be in the middle of, how
far, and the tokens that may follow (as bits). Computed by a script; only what `Lalr.lean` checks
about them is used.
-/

namespace Selint
namespace Lr

/-- The items of the states from 0: production, place in it, tokens that may follow. -/
def lalrItems0 : List (List (Nat × Nat × Nat)) := [
  [(0, 0, 38685626227668133590597632), (1, 0, 38685626227668133590597632), (2, 0,
  38685626227668133590597632), (3, 0, 38685626227668133590597632), (4, 0,
  38685626227668133590597632), (5, 0, 38685626227668133590597632), (6, 0,
  38685626227668133590597632), (7, 0, 38685626227668133590597632), (8, 0,
  38685626227668133590597632), (9, 0, 38685626227668133590597632), (10, 0,
  38685626227668133590597632), (11, 0, 38685626227703387286144768), (12, 0,
  38685626227703387286144768), (13, 0, 38761184091429301609563904), (14, 0,
  9748145066271606797368830), (15, 0, 9748145066271606797368830), (244, 0,
  38685626227668133590597632), (245, 0, 38685626227668133590597632), (250, 0,
  38761184091429232353214464), (251, 0, 38761184091429232353214464), (252, 0,
  38761184091429232353214464), (253, 0, 38761184091429232353214464), (254, 0,
  9788285181375998781685246), (256, 0, 147573952589676412928), (257, 0, 147573952589676412928),
  (258, 0, 38685626227668133590597632), (259, 0, 38685626227668133590597632), (264, 0,
  38761184091394047914017792), (265, 0, 38761184091394047914017792), (266, 0,
  38685626227668133590597632), (267, 0, 38685626227668133590597632), (272, 0,
  38761184091394047914017536), (273, 0, 38761184091394047914017536), (274, 0,
  38761184091394047914017536), (275, 0, 38761184091394047914017536), (276, 0,
  38761184091394047914017536), (277, 0, 38761184091394047914017536)],
  [],
  [(1, 1, 38685626227668133590597632)],
  [(2, 1, 38685626227668133590597632), (4, 1, 38685626227668133590597632), (6, 1,
  38685626227668133590597632), (8, 1, 38685626227668133590597632), (9, 1,
  38685626227668133590597632), (10, 0, 38685626227668133590597632), (14, 0,
  9748145066271606797368830), (15, 0, 9748145066271606797368830), (244, 0,
  38685626227668133590597632), (245, 0, 38685626227668133590597632), (250, 0,
  38761184091429232353214464), (251, 0, 38761184091429232353214464), (252, 0,
  38761184091429232353214464), (253, 0, 38761184091429232353214464), (254, 0,
  9788285181375998781685246), (256, 0, 147573952589676412928), (257, 0, 147573952589676412928),
  (258, 0, 38685626227668133590597632), (259, 0, 38685626227668133590597632), (264, 0,
  38761184091394047914017792), (265, 0, 38761184091394047914017792), (266, 0,
  38685626227668133590597632), (267, 0, 38685626227668133590597632), (272, 0,
  38761184091394047914017536), (273, 0, 38761184091394047914017536), (274, 0,
  38761184091394047914017536), (275, 0, 38761184091394047914017536), (276, 0,
  38761184091394047914017536), (277, 0, 38761184091394047914017536)],
  [(3, 1, 38685626227668133590597632)],
  [(5, 1, 38685626227668133590597632)],
  [(7, 1, 38685626227668133590597632)],
  [(10, 1, 38685626227668133590597632), (18, 0, 38685626227668133590597632), (19, 0,
  48433771293939740387966462), (20, 0, 48433771293939740387966462), (21, 0,
  48433771293939740387966462), (22, 0, 48433771293939740387966462), (23, 0,
  48471550225802697549676030), (24, 0, 48471550225802697549676030), (25, 0,
  48471550225802697549676030), (26, 0, 48471550225802697549676030), (27, 0,
  48471550225802697549676030), (28, 0, 48471550225802697549676030), (29, 0,
  48471550225802697549676030), (30, 0, 48471550225802697549676030), (31, 0,
  48471550225802697549676030), (32, 0, 48471550225802697549676030), (33, 0,
  48471550225802697549676030), (34, 0, 48471550225802697549676030), (35, 0,
  48471550225802697549676030), (36, 0, 48471550225802697549676030), (37, 0,
  48471550225802697549676030), (38, 0, 48471550225802697549676030), (39, 0,
  48471550225802697549676030), (40, 0, 48471550225802697549676030), (41, 0,
  48471550225802697549676030), (42, 0, 48471550225802697549676030), (43, 0,
  48471550225802697549676030), (44, 0, 48471550225802697549676030), (45, 0,
  48471550225802697549676030), (46, 0, 48471550225802697549676030), (47, 0,
  48471550225802697549676030), (48, 0, 48471550225802697549676030), (49, 0,
  48471550225802697549676030), (50, 0, 48471550225802697549676030), (51, 0,
  48471550225802697549676030), (52, 0, 48471550225802697549676030), (53, 0,
  48471550225802697549676030), (54, 0, 48471550225802697549676030), (55, 0,
  48471550225802697549676030), (56, 0, 48471550225802697549676030), (57, 0,
  48471550225802697549676030), (58, 0, 48471550225802697549676030), (59, 0,
  48471550225802697549676030), (60, 0, 48471550225802697549676030), (61, 0,
  48471550225802697549676030), (62, 0, 48471550225802697549676030), (63, 0,
  48471550225802697549676030), (64, 0, 48471550225802697549676030), (65, 0,
  48471550225802697549676030), (66, 0, 48471550225802697549676030), (67, 0,
  48471550225802697549676030), (68, 0, 48471550225802697549676030), (69, 0,
  48471550225802697549676030), (70, 0, 14521355333486472297709568), (71, 0,
  14521355333486472297709568), (72, 0, 14521355333486472297709568), (73, 0,
  14521355333486472297709568), (74, 0, 48471550225802697549676030), (75, 0,
  14521355333486472297709568), (76, 0, 14521355333486472297709568), (77, 0,
  14521355333486472297709568), (78, 0, 14521355333486472297709568), (99, 0,
  48471550225802697549676030), (100, 0, 48471550225802697549676030), (101, 0,
  48471550225802697549676030), (102, 0, 48471550225802697549676030), (103, 0,
  48471550225802697549676030), (104, 0, 48471550225802697549676030), (105, 0,
  48471550225802697549676030), (106, 0, 48471550225802697549676030), (107, 0,
  48471550225802697549676030), (108, 0, 48471550225802697549676030), (109, 0,
  48471550225802697549676030), (110, 0, 48471550225802697549676030), (111, 0,
  48471550225802697549676030), (114, 0, 48471550225802697549676030), (115, 0,
  9750506249513041619975678), (116, 0, 9750506249513041619975678), (117, 0,
  48471550225802697549676030), (118, 0, 48471550225802697549676030), (119, 0,
  48471550225802697549676030), (121, 0, 48471550225802697549676030), (123, 0,
  48471550225802697549676030), (124, 0, 75558007984038931857816), (125, 0,
  75558007984038931857816), (141, 0, 48471550225802697549676030), (142, 0,
  48471550225802697549676030), (143, 0, 48471550225802697549676030), (144, 0,
  48471550225802697549676030), (145, 0, 48471550225802697549676030), (147, 0,
  48471550225802697549676030), (148, 0, 147573952589676412928), (149, 0, 147573952589676412928),
  (151, 0, 48471550225802697549676030), (152, 0, 48471550225802697549676030), (153, 0,
  48471550225802697549676030), (196, 0, 48471550225802697549676030), (197, 0,
  48471550225802697549676030), (198, 0, 48471550225802697549676030), (199, 0,
  48471550225802697549676030), (200, 0, 9671572577613696783613952), (201, 0,
  9671572577613696783613952), (203, 0, 48471550225802697549676030), (205, 0,
  48471550225802697549676030), (206, 0, 48471550225802697549676030), (207, 0,
  48471550225802697549676030), (210, 0, 48471550225802697549676030), (211, 0,
  48471550225802697549676030), (215, 0, 48471550225802697549676030), (216, 0,
  48471550225802697549676030), (219, 0, 48471550225802697549676030), (220, 0,
  48471550225802697549676030), (221, 0, 48471550225802697549676030), (223, 0,
  48471550225802697549676030), (233, 0, 48471550225802697549676030), (234, 0,
  48471550225802697549676030), (242, 0, 48471550225802697549676030), (243, 0,
  48471550225802697549676030)],
  [(11, 0, 38685626227703387286144768), (11, 1, 38685626227703387286144768), (12, 0,
  38685626227703387286144768), (12, 1, 38685626227703387286144768), (13, 0,
  38761184091429301609563904)],
  [(244, 1, 38685626227668133590597632), (245, 1, 38685626227668133590597632), (246, 0,
  38761184091429232353214464), (247, 0, 38761184091429232353214464), (248, 0,
  38761184091429232353214464), (249, 0, 38761184091429232353214464), (250, 0,
  38761184091429232353214464), (251, 0, 38761184091429232353214464), (252, 0,
  38761184091429232353214464), (253, 0, 38761184091429232353214464), (254, 0,
  9788285181375998781685246), (256, 0, 147573952589676412928), (257, 0, 147573952589676412928)],
  [(258, 1, 38685626227668133590597632), (259, 1, 38685626227668133590597632), (260, 0,
  38761184091394047914017792), (261, 0, 38761184091394047914017792), (262, 0,
  38761184091394047914017792), (263, 0, 38761184091394047914017792), (264, 0,
  38761184091394047914017792), (265, 0, 38761184091394047914017792)],
  [(266, 1, 38685626227668133590597632), (267, 1, 38685626227668133590597632), (268, 0,
  38761184091394047914017536), (269, 0, 38761184091394047914017536), (270, 0,
  38761184091394047914017536), (271, 0, 38761184091394047914017536), (272, 0,
  38761184091394047914017536), (273, 0, 38761184091394047914017536), (274, 0,
  38761184091394047914017536), (275, 0, 38761184091394047914017536), (276, 0,
  38761184091394047914017536), (277, 0, 38761184091394047914017536)],
  [(14, 1, 9748145066271606797368830)],
  [(15, 1, 9748145066271606797368830)],
  [(13, 1, 38761184091429301609563904)],
  [(19, 0, 9750506249513041619975678), (20, 0, 9750506249513041619975678), (21, 0,
  9750506249513041619975678), (22, 0, 9750506249513041619975678), (23, 0,
  9788285181375998781685246), (24, 0, 9788285181375998781685246), (25, 0,
  9788285181375998781685246), (26, 0, 9788285181375998781685246), (27, 0,
  9788285181375998781685246), (28, 0, 9788285181375998781685246), (29, 0,
  9788285181375998781685246), (30, 0, 9788285181375998781685246), (31, 0,
  9788285181375998781685246), (32, 0, 9788285181375998781685246), (33, 0,
  9788285181375998781685246), (34, 0, 9788285181375998781685246), (35, 0,
  9788285181375998781685246), (36, 0, 9788285181375998781685246), (37, 0,
  9788285181375998781685246), (38, 0, 9788285181375998781685246), (39, 0,
  9788285181375998781685246), (40, 0, 9788285181375998781685246), (41, 0,
  9788285181375998781685246), (42, 0, 9788285181375998781685246), (43, 0,
  9788285181375998781685246), (44, 0, 9788285181375998781685246), (45, 0,
  9788285181375998781685246), (46, 0, 9788285181375998781685246), (47, 0,
  9788285181375998781685246), (48, 0, 9788285181375998781685246), (49, 0,
  9788285181375998781685246), (50, 0, 9788285181375998781685246), (51, 0,
  9788285181375998781685246), (52, 0, 9788285181375998781685246), (53, 0,
  9788285181375998781685246), (54, 0, 9788285181375998781685246), (55, 0,
  9788285181375998781685246), (56, 0, 9788285181375998781685246), (57, 0,
  9788285181375998781685246), (58, 0, 9788285181375998781685246), (59, 0,
  9788285181375998781685246), (60, 0, 9788285181375998781685246), (61, 0,
  9788285181375998781685246), (62, 0, 9788285181375998781685246), (63, 0,
  9788285181375998781685246), (64, 0, 9788285181375998781685246), (65, 0,
  9788285181375998781685246), (66, 0, 9788285181375998781685246), (67, 0,
  9788285181375998781685246), (68, 0, 9788285181375998781685246), (69, 0,
  9788285181375998781685246), (70, 0, 14521355333486472297709568), (71, 0,
  14521355333486472297709568), (72, 0, 14521355333486472297709568), (73, 0,
  14521355333486472297709568), (74, 0, 9788285181375998781685246), (75, 0,
  14521355333486472297709568), (76, 0, 14521355333486472297709568), (77, 0,
  14521355333486472297709568), (78, 0, 14521355333486472297709568), (99, 0,
  9788285181375998781685246), (100, 0, 9788285181375998781685246), (101, 0,
  9788285181375998781685246), (102, 0, 9788285181375998781685246), (103, 0,
  9788285181375998781685246), (104, 0, 9788285181375998781685246), (105, 0,
  9788285181375998781685246), (106, 0, 9788285181375998781685246), (107, 0,
  9788285181375998781685246), (108, 0, 9788285181375998781685246), (109, 0,
  9788285181375998781685246), (110, 0, 9788285181375998781685246), (111, 0,
  9788285181375998781685246), (114, 0, 9788285181375998781685246), (115, 0,
  9750506249513041619975678), (116, 0, 9750506249513041619975678), (117, 0,
  9788285181375998781685246), (118, 0, 9788285181375998781685246), (119, 0,
  9788285181375998781685246), (121, 0, 9788285181375998781685246), (123, 0,
  9788285181375998781685246), (124, 0, 75558007984038931857816), (125, 0,
  75558007984038931857816), (141, 0, 9788285181375998781685246), (142, 0,
  9788285181375998781685246), (143, 0, 9788285181375998781685246), (144, 0,
  9788285181375998781685246), (145, 0, 9788285181375998781685246), (147, 0,
  9788285181375998781685246), (148, 0, 147573952589676412928), (149, 0, 147573952589676412928),
  (151, 0, 9788285181375998781685246), (152, 0, 9788285181375998781685246), (153, 0,
  9788285181375998781685246), (196, 0, 9788285181375998781685246), (197, 0,
  9788285181375998781685246), (198, 0, 9788285181375998781685246), (199, 0,
  9788285181375998781685246), (200, 0, 9671572577613696783613952), (201, 0,
  9671572577613696783613952), (203, 0, 9788285181375998781685246), (205, 0,
  9788285181375998781685246), (206, 0, 9788285181375998781685246), (207, 0,
  9788285181375998781685246), (210, 0, 9788285181375998781685246), (211, 0,
  9788285181375998781685246), (215, 0, 9788285181375998781685246), (216, 0,
  9788285181375998781685246), (219, 0, 9788285181375998781685246), (220, 0,
  9788285181375998781685246), (221, 0, 9788285181375998781685246), (223, 0,
  9788285181375998781685246), (233, 0, 9788285181375998781685246), (234, 0,
  9788285181375998781685246), (242, 0, 9788285181375998781685246), (243, 0,
  9788285181375998781685246), (250, 1, 38761184091429232353214464), (251, 1,
  38761184091429232353214464), (252, 1, 38761184091429232353214464), (253, 1,
  38761184091429232353214464), (255, 0, 38761184091429232353214464)],
  [(264, 1, 38761184091394047914017792), (265, 1, 38761184091394047914017792)],
  [(272, 1, 38761184091394047914017536)],
  [(273, 1, 38761184091394047914017536)],
  [(254, 1, 9788285181375998781685246)],
  [(274, 1, 38761184091394047914017536), (275, 1, 38761184091394047914017536), (276, 1,
  38761184091394047914017536)],
  [(277, 1, 38761184091394047914017536)],
  [(256, 1, 147573952589676412928)],
  [(257, 1, 147573952589676412928)],
  [(2, 2, 38685626227668133590597632)]]

/-- The items of the states from 25: production, place in it, tokens that may follow. -/
def lalrItems1 : List (List (Nat × Nat × Nat)) := [
  [(4, 2, 38685626227668133590597632)],
  [(6, 2, 38685626227668133590597632)],
  [(8, 2, 38685626227668133590597632)],
  [(10, 2, 38685626227668133590597632)],
  [(18, 1, 38685626227668133590597632), (19, 1, 48433771293939740387966462), (21, 0,
  48433771293939740387966462), (22, 0, 48433771293939740387966462), (23, 0,
  48471550225802697549676030), (24, 0, 48471550225802697549676030), (25, 0,
  48471550225802697549676030), (26, 0, 48471550225802697549676030), (27, 0,
  48471550225802697549676030), (28, 0, 48471550225802697549676030), (29, 0,
  48471550225802697549676030), (30, 0, 48471550225802697549676030), (31, 0,
  48471550225802697549676030), (32, 0, 48471550225802697549676030), (33, 0,
  48471550225802697549676030), (34, 0, 48471550225802697549676030), (35, 0,
  48471550225802697549676030), (36, 0, 48471550225802697549676030), (37, 0,
  48471550225802697549676030), (38, 0, 48471550225802697549676030), (39, 0,
  48471550225802697549676030), (40, 0, 48471550225802697549676030), (41, 0,
  48471550225802697549676030), (42, 0, 48471550225802697549676030), (43, 0,
  48471550225802697549676030), (44, 0, 48471550225802697549676030), (45, 0,
  48471550225802697549676030), (46, 0, 48471550225802697549676030), (47, 0,
  48471550225802697549676030), (48, 0, 48471550225802697549676030), (49, 0,
  48471550225802697549676030), (50, 0, 48471550225802697549676030), (51, 0,
  48471550225802697549676030), (52, 0, 48471550225802697549676030), (53, 0,
  48471550225802697549676030), (54, 0, 48471550225802697549676030), (55, 0,
  48471550225802697549676030), (56, 0, 48471550225802697549676030), (57, 0,
  48471550225802697549676030), (58, 0, 48471550225802697549676030), (59, 0,
  48471550225802697549676030), (60, 0, 48471550225802697549676030), (61, 0,
  48471550225802697549676030), (62, 0, 48471550225802697549676030), (63, 0,
  48471550225802697549676030), (64, 0, 48471550225802697549676030), (65, 0,
  48471550225802697549676030), (66, 0, 48471550225802697549676030), (67, 0,
  48471550225802697549676030), (68, 0, 48471550225802697549676030), (69, 0,
  48471550225802697549676030), (70, 0, 14521355333486472297709568), (71, 0,
  14521355333486472297709568), (72, 0, 14521355333486472297709568), (73, 0,
  14521355333486472297709568), (74, 0, 48471550225802697549676030), (75, 0,
  14521355333486472297709568), (76, 0, 14521355333486472297709568), (77, 0,
  14521355333486472297709568), (78, 0, 14521355333486472297709568), (99, 0,
  48471550225802697549676030), (100, 0, 48471550225802697549676030), (101, 0,
  48471550225802697549676030), (102, 0, 48471550225802697549676030), (103, 0,
  48471550225802697549676030), (104, 0, 48471550225802697549676030), (105, 0,
  48471550225802697549676030), (106, 0, 48471550225802697549676030), (107, 0,
  48471550225802697549676030), (108, 0, 48471550225802697549676030), (109, 0,
  48471550225802697549676030), (110, 0, 48471550225802697549676030), (111, 0,
  48471550225802697549676030), (114, 0, 48471550225802697549676030), (115, 0,
  9750506249513041619975678), (116, 0, 9750506249513041619975678), (117, 0,
  48471550225802697549676030), (118, 0, 48471550225802697549676030), (119, 0,
  48471550225802697549676030), (121, 0, 48471550225802697549676030), (123, 0,
  48471550225802697549676030), (124, 0, 75558007984038931857816), (125, 0,
  75558007984038931857816), (141, 0, 48471550225802697549676030), (142, 0,
  48471550225802697549676030), (143, 0, 48471550225802697549676030), (144, 0,
  48471550225802697549676030), (145, 0, 48471550225802697549676030), (147, 0,
  48471550225802697549676030), (148, 0, 147573952589676412928), (149, 0, 147573952589676412928),
  (151, 0, 48471550225802697549676030), (152, 0, 48471550225802697549676030), (153, 0,
  48471550225802697549676030), (196, 0, 48471550225802697549676030), (197, 0,
  48471550225802697549676030), (198, 0, 48471550225802697549676030), (199, 0,
  48471550225802697549676030), (200, 0, 9671572577613696783613952), (201, 0,
  9671572577613696783613952), (203, 0, 48471550225802697549676030), (205, 0,
  48471550225802697549676030), (206, 0, 48471550225802697549676030), (207, 0,
  48471550225802697549676030), (210, 0, 48471550225802697549676030), (211, 0,
  48471550225802697549676030), (215, 0, 48471550225802697549676030), (216, 0,
  48471550225802697549676030), (219, 0, 48471550225802697549676030), (220, 0,
  48471550225802697549676030), (221, 0, 48471550225802697549676030), (223, 0,
  48471550225802697549676030), (233, 0, 48471550225802697549676030), (234, 0,
  48471550225802697549676030), (242, 0, 48471550225802697549676030), (243, 0,
  48471550225802697549676030)],
  [(20, 1, 48436132765411551362285054)],
  [(21, 1, 48436132765411551362285054), (22, 1, 48436132765411551362285054)],
  [(23, 1, 48473911697274508523994622)],
  [(24, 1, 48473911697274508523994622)],
  [(25, 1, 48473911697274508523994622)],
  [(26, 1, 48473911697274508523994622)],
  [(27, 1, 48473911697274508523994622)],
  [(28, 1, 48473911697274508523994622)],
  [(29, 1, 48473911697274508523994622)],
  [(30, 1, 48473911697274508523994622)],
  [(31, 1, 48473911697274508523994622)],
  [(32, 1, 48473911697274508523994622)],
  [(33, 1, 48473911697274508523994622)],
  [(34, 1, 48473911697274508523994622)],
  [(35, 1, 48473911697274508523994622)],
  [(36, 1, 48473911697274508523994622)],
  [(37, 1, 48473911697274508523994622)],
  [(38, 1, 48473911697274508523994622)],
  [(39, 1, 48473911697274508523994622)],
  [(40, 1, 48473911697274508523994622)]]

/-- The items of the states from 50: production, place in it, tokens that may follow. -/
def lalrItems2 : List (List (Nat × Nat × Nat)) := [
  [(41, 1, 48473911697274508523994622)],
  [(42, 1, 48473911697274508523994622)],
  [(43, 1, 48473911697274508523994622)],
  [(44, 1, 48473911697274508523994622)],
  [(45, 1, 48473911697274508523994622)],
  [(46, 1, 48473911697274508523994622)],
  [(47, 1, 48473911697274508523994622)],
  [(48, 1, 48473911697274508523994622)],
  [(49, 1, 48473911697274508523994622)],
  [(50, 1, 48473911697274508523994622)],
  [(51, 1, 48473911697274508523994622)],
  [(52, 1, 48473911697274508523994622)],
  [(53, 1, 48473911697274508523994622)],
  [(54, 1, 48473911697274508523994622)],
  [(55, 1, 48473911697274508523994622), (100, 1, 48473911697274508523994622)],
  [(56, 1, 48473911697274508523994622)],
  [(57, 1, 48473911697274508523994622)],
  [(67, 1, 48473911697274508523994622)],
  [(68, 1, 48473911697274508523994622)],
  [(66, 1, 48473911697274508523994622)],
  [(69, 1, 48473911697274508523994622), (88, 0, 14521355333486472297709568), (89, 0,
  14521355333486472297709568), (90, 0, 14521355333486472297709568), (91, 0,
  14521355333486472297709568), (94, 0, 14521355333486472297709568), (95, 0,
  14521355333486472297709568), (96, 0, 14521355333486472297709568), (99, 1,
  48473911697274508523994622)],
  [(74, 1, 48473911697274508523994622), (88, 0, 14521355333486472297709568), (89, 0,
  14521355333486472297709568), (90, 0, 14521355333486472297709568), (91, 0,
  14521355333486472297709568), (94, 0, 14521355333486472297709568), (95, 0,
  14521355333486472297709568), (96, 0, 14521355333486472297709568)],
  [(88, 0, 14521355333486472297709568), (89, 0, 14521355333486472297709568), (90, 0,
  14521355333486472297709568), (91, 0, 14521355333486472297709568), (94, 0,
  14521355333486472297709568), (95, 0, 14521355333486472297709568), (96, 0,
  14521355333486472297709568), (101, 1, 48473911697274508523994622), (102, 1,
  48473911697274508523994622)],
  [(88, 0, 14521355333486472297709568), (89, 0, 14521355333486472297709568), (90, 0,
  14521355333486472297709568), (91, 0, 14521355333486472297709568), (94, 0,
  14521355333486472297709568), (95, 0, 14521355333486472297709568), (96, 0,
  14521355333486472297709568), (103, 1, 48473911697274508523994622)],
  [(88, 0, 14521355333486472297709568), (89, 0, 14521355333486472297709568), (90, 0,
  14521355333486472297709568), (91, 0, 14521355333486472297709568), (94, 0,
  14521355333486472297709568), (95, 0, 14521355333486472297709568), (96, 0,
  14521355333486472297709568), (104, 1, 48473911697274508523994622)]]

/-- The items of the states from 75: production, place in it, tokens that may follow. -/
def lalrItems3 : List (List (Nat × Nat × Nat)) := [
  [(88, 0, 14521355333486472297709568), (89, 0, 14521355333486472297709568), (90, 0,
  14521355333486472297709568), (91, 0, 14521355333486472297709568), (94, 0,
  14521355333486472297709568), (95, 0, 14521355333486472297709568), (96, 0,
  14521355333486472297709568), (105, 1, 48473911697274508523994622)],
  [(88, 0, 14521355333486472297709568), (89, 0, 14521355333486472297709568), (90, 0,
  14521355333486472297709568), (91, 0, 14521355333486472297709568), (94, 0,
  14521355333486472297709568), (95, 0, 14521355333486472297709568), (96, 0,
  14521355333486472297709568), (106, 1, 48473911697274508523994622), (107, 1,
  48473911697274508523994622)],
  [(108, 1, 48473911697274508523994622), (109, 1, 48473911697274508523994622), (141, 1,
  48473911697274508523994622)],
  [(19, 0, 9750506249513041619975678), (20, 0, 9750506249513041619975678), (21, 0,
  9750506249513041619975678), (22, 0, 9750506249513041619975678), (23, 0,
  9788285181375998781685246), (24, 0, 9788285181375998781685246), (25, 0,
  9788285181375998781685246), (26, 0, 9788285181375998781685246), (27, 0,
  9788285181375998781685246), (28, 0, 9788285181375998781685246), (29, 0,
  9788285181375998781685246), (30, 0, 9788285181375998781685246), (31, 0,
  9788285181375998781685246), (32, 0, 9788285181375998781685246), (33, 0,
  9788285181375998781685246), (34, 0, 9788285181375998781685246), (35, 0,
  9788285181375998781685246), (36, 0, 9788285181375998781685246), (37, 0,
  9788285181375998781685246), (38, 0, 9788285181375998781685246), (39, 0,
  9788285181375998781685246), (40, 0, 9788285181375998781685246), (41, 0,
  9788285181375998781685246), (42, 0, 9788285181375998781685246), (43, 0,
  9788285181375998781685246), (44, 0, 9788285181375998781685246), (45, 0,
  9788285181375998781685246), (46, 0, 9788285181375998781685246), (47, 0,
  9788285181375998781685246), (48, 0, 9788285181375998781685246), (49, 0,
  9788285181375998781685246), (50, 0, 9788285181375998781685246), (51, 0,
  9788285181375998781685246), (52, 0, 9788285181375998781685246), (53, 0,
  9788285181375998781685246), (54, 0, 9788285181375998781685246), (55, 0,
  9788285181375998781685246), (56, 0, 9788285181375998781685246), (57, 0,
  9788285181375998781685246), (58, 0, 9788285181375998781685246), (59, 0,
  9788285181375998781685246), (60, 0, 9788285181375998781685246), (61, 0,
  9788285181375998781685246), (62, 0, 9788285181375998781685246), (63, 0,
  9788285181375998781685246), (64, 0, 9788285181375998781685246), (65, 0,
  9788285181375998781685246), (66, 0, 9788285181375998781685246), (67, 0,
  9788285181375998781685246), (68, 0, 9788285181375998781685246), (69, 0,
  9788285181375998781685246), (70, 0, 14521355333486472297709568), (71, 0,
  14521355333486472297709568), (72, 0, 14521355333486472297709568), (73, 0,
  14521355333486472297709568), (74, 0, 9788285181375998781685246), (75, 0,
  14521355333486472297709568), (76, 0, 14521355333486472297709568), (77, 0,
  14521355333486472297709568), (78, 0, 14521355333486472297709568), (99, 0,
  9788285181375998781685246), (100, 0, 9788285181375998781685246), (101, 0,
  9788285181375998781685246), (102, 0, 9788285181375998781685246), (103, 0,
  9788285181375998781685246), (104, 0, 9788285181375998781685246), (105, 0,
  9788285181375998781685246), (106, 0, 9788285181375998781685246), (107, 0,
  9788285181375998781685246), (108, 0, 9788285181375998781685246), (109, 0,
  9788285181375998781685246), (110, 0, 9788285181375998781685246), (110, 1,
  48473911697274508523994622), (111, 0, 9788285181375998781685246), (111, 1,
  48473911697274508523994622), (114, 0, 9788285181375998781685246), (114, 1,
  48473911697274508523994622), (115, 0, 9750506249513041619975678), (116, 0,
  9750506249513041619975678), (117, 0, 9788285181375998781685246), (118, 0,
  9788285181375998781685246), (119, 0, 9788285181375998781685246), (121, 0,
  9788285181375998781685246), (123, 0, 9788285181375998781685246), (124, 0,
  75558007984038931857816), (125, 0, 75558007984038931857816), (141, 0,
  9788285181375998781685246), (142, 0, 9788285181375998781685246), (143, 0,
  9788285181375998781685246), (144, 0, 9788285181375998781685246), (145, 0,
  9788285181375998781685246), (147, 0, 9788285181375998781685246), (148, 0,
  147573952589676412928), (149, 0, 147573952589676412928), (151, 0, 9788285181375998781685246),
  (152, 0, 9788285181375998781685246), (153, 0, 9788285181375998781685246), (196, 0,
  9788285181375998781685246), (197, 0, 9788285181375998781685246), (198, 0,
  9788285181375998781685246), (199, 0, 9788285181375998781685246), (200, 0,
  9671572577613696783613952), (201, 0, 9671572577613696783613952), (203, 0,
  9788285181375998781685246), (205, 0, 9788285181375998781685246), (206, 0,
  9788285181375998781685246), (207, 0, 9788285181375998781685246), (210, 0,
  9788285181375998781685246), (211, 0, 9788285181375998781685246), (215, 0,
  9788285181375998781685246), (216, 0, 9788285181375998781685246), (219, 0,
  9788285181375998781685246), (220, 0, 9788285181375998781685246), (221, 0,
  9788285181375998781685246), (223, 0, 9788285181375998781685246), (233, 0,
  9788285181375998781685246), (234, 0, 9788285181375998781685246), (242, 0,
  9788285181375998781685246), (243, 0, 9788285181375998781685246)],
  [(117, 1, 48473911697274508523994622), (118, 1, 48473911697274508523994622), (119, 1,
  48473911697274508523994622), (126, 0, 75558440329603159425432), (127, 0,
  75558440329603159425432), (128, 0, 75558440329603159425432), (129, 0, 75558440329603159425432),
  (130, 0, 113337372192560321135000), (131, 0, 113337372192560321135000), (132, 0,
  113337372192560321135000), (133, 0, 113337372192560321135000), (134, 0,
  113337372192560321135000), (135, 0, 113337372192560321135000), (137, 0,
  113337372192560321135000), (139, 0, 113337372192560321135000), (140, 0,
  113337372192560321135000), (148, 0, 147573952589676412928), (149, 0, 147573952589676412928)],
  [(121, 1, 48473911697274508523994622), (123, 1, 48473911697274508523994622)],
  [(142, 1, 48473911697274508523994622)],
  [(143, 1, 48473911697274508523994622)],
  [(144, 1, 48473911697274508523994622)],
  [(145, 1, 48473911697274508523994622)],
  [(196, 1, 48473911697274508523994622)],
  [(197, 1, 48473911697274508523994622)],
  [(206, 1, 48473911697274508523994622), (207, 1, 48473911697274508523994622)],
  [(210, 1, 48473911697274508523994622)],
  [(211, 1, 48473911697274508523994622)],
  [(215, 1, 48473911697274508523994622)],
  [(216, 1, 48473911697274508523994622), (217, 0, 9671406556917033397780480), (218, 0,
  9671406556917033397780480)],
  [(219, 1, 48473911697274508523994622)],
  [(220, 1, 48473911697274508523994622)],
  [(221, 1, 48473911697274508523994622)],
  [(223, 1, 48473911697274508523994622)],
  [(233, 1, 48473911697274508523994622), (234, 1, 48473911697274508523994622)],
  [(242, 1, 48473911697274508523994622)],
  [(243, 1, 48473911697274508523994622)],
  [(58, 1, 48473911697274508523994622), (59, 1, 48473911697274508523994622), (60, 1,
  48473911697274508523994622), (61, 1, 48473911697274508523994622)]]

/-- The items of the states from 100: production, place in it, tokens that may follow. -/
def lalrItems4 : List (List (Nat × Nat × Nat)) := [
  [(62, 1, 48473911697274508523994622)],
  [(63, 1, 48473911697274508523994622)],
  [(64, 1, 48473911697274508523994622), (65, 1, 48473911697274508523994622)],
  [(70, 1, 14521355333486472297709568)],
  [(71, 1, 14521355333486472297709568)],
  [(72, 1, 14521355333486472297709568)],
  [(73, 1, 14521355333486472297709568)],
  [(75, 1, 14521355333486472297709568)],
  [(76, 1, 14521355333486472297709568)],
  [(77, 1, 14521355333486472297709568)],
  [(78, 1, 14521355333486472297709568)],
  [(115, 1, 9750506249513041619975678), (116, 1, 9750506249513041619975678)],
  [(124, 1, 75558007984038931857816), (125, 1, 75558007984038931857816)],
  [(147, 1, 48473911697274508523994622)],
  [(151, 1, 48473911697274508523994622)],
  [(152, 1, 48473911697274508523994622)],
  [(153, 1, 48473911697274508523994622)],
  [(203, 1, 48473911697274508523994622), (205, 1, 48473911697274508523994622)],
  [(167, 0, 19231379215188548911104), (168, 0, 19231379215188548911104), (169, 0,
  19231379215188548911104), (170, 0, 19231379215188548911104), (171, 0, 19231379215188548911104),
  (172, 0, 19231379215188548911104), (173, 0, 19231379215188548911104), (174, 0,
  19231379215188548911104), (198, 1, 48473911697274508523994622), (199, 1,
  48473911697274508523994622)],
  [(148, 1, 147573952589676412928)],
  [(149, 1, 147573952589676412928)],
  [(200, 1, 9671572577613696783613952), (201, 1, 9671572577613696783613952)],
  [(12, 2, 38685626227703387286144768)],
  [(244, 2, 38685626227668133590597632), (246, 1, 38761184091429232353214464), (248, 0,
  38761184091429232353214464), (249, 0, 38761184091429232353214464), (250, 0,
  38761184091429232353214464), (251, 0, 38761184091429232353214464), (252, 0,
  38761184091429232353214464), (253, 0, 38761184091429232353214464), (254, 0,
  9788285181375998781685246), (256, 0, 147573952589676412928), (257, 0, 147573952589676412928)],
  [(247, 1, 38761184091429232353214464)]]

/-- The items of the states from 125: production, place in it, tokens that may follow. -/
def lalrItems5 : List (List (Nat × Nat × Nat)) := [
  [(248, 1, 38761184091429232353214464)],
  [(249, 1, 38761184091429232353214464)],
  [(258, 2, 38685626227668133590597632), (260, 1, 38761184091394047914017792), (262, 0,
  38761184091394047914017792), (263, 0, 38761184091394047914017792), (264, 0,
  38761184091394047914017792), (265, 0, 38761184091394047914017792)],
  [(261, 1, 38761184091394047914017792)],
  [(262, 1, 38761184091394047914017792)],
  [(263, 1, 38761184091394047914017792)],
  [(266, 2, 38685626227668133590597632), (268, 1, 38761184091394047914017536), (270, 0,
  38761184091394047914017536), (271, 0, 38761184091394047914017536), (272, 0,
  38761184091394047914017536), (273, 0, 38761184091394047914017536), (274, 0,
  38761184091394047914017536), (275, 0, 38761184091394047914017536), (276, 0,
  38761184091394047914017536), (277, 0, 38761184091394047914017536)],
  [(269, 1, 38761184091394047914017536)],
  [(270, 1, 38761184091394047914017536)],
  [(271, 1, 38761184091394047914017536)],
  [(14, 2, 9748145066271606797368830)],
  [(15, 2, 9748145066271606797368830), (16, 0, 1180591620717411303424), (17, 0,
  1180591620717411303424)],
  [(19, 1, 9750506249513041619975678), (21, 0, 9750506249513041619975678), (22, 0,
  9750506249513041619975678), (23, 0, 9788285181375998781685246), (24, 0,
  9788285181375998781685246), (25, 0, 9788285181375998781685246), (26, 0,
  9788285181375998781685246), (27, 0, 9788285181375998781685246), (28, 0,
  9788285181375998781685246), (29, 0, 9788285181375998781685246), (30, 0,
  9788285181375998781685246), (31, 0, 9788285181375998781685246), (32, 0,
  9788285181375998781685246), (33, 0, 9788285181375998781685246), (34, 0,
  9788285181375998781685246), (35, 0, 9788285181375998781685246), (36, 0,
  9788285181375998781685246), (37, 0, 9788285181375998781685246), (38, 0,
  9788285181375998781685246), (39, 0, 9788285181375998781685246), (40, 0,
  9788285181375998781685246), (41, 0, 9788285181375998781685246), (42, 0,
  9788285181375998781685246), (43, 0, 9788285181375998781685246), (44, 0,
  9788285181375998781685246), (45, 0, 9788285181375998781685246), (46, 0,
  9788285181375998781685246), (47, 0, 9788285181375998781685246), (48, 0,
  9788285181375998781685246), (49, 0, 9788285181375998781685246), (50, 0,
  9788285181375998781685246), (51, 0, 9788285181375998781685246), (52, 0,
  9788285181375998781685246), (53, 0, 9788285181375998781685246), (54, 0,
  9788285181375998781685246), (55, 0, 9788285181375998781685246), (56, 0,
  9788285181375998781685246), (57, 0, 9788285181375998781685246), (58, 0,
  9788285181375998781685246), (59, 0, 9788285181375998781685246), (60, 0,
  9788285181375998781685246), (61, 0, 9788285181375998781685246), (62, 0,
  9788285181375998781685246), (63, 0, 9788285181375998781685246), (64, 0,
  9788285181375998781685246), (65, 0, 9788285181375998781685246), (66, 0,
  9788285181375998781685246), (67, 0, 9788285181375998781685246), (68, 0,
  9788285181375998781685246), (69, 0, 9788285181375998781685246), (70, 0,
  14521355333486472297709568), (71, 0, 14521355333486472297709568), (72, 0,
  14521355333486472297709568), (73, 0, 14521355333486472297709568), (74, 0,
  9788285181375998781685246), (75, 0, 14521355333486472297709568), (76, 0,
  14521355333486472297709568), (77, 0, 14521355333486472297709568), (78, 0,
  14521355333486472297709568), (99, 0, 9788285181375998781685246), (100, 0,
  9788285181375998781685246), (101, 0, 9788285181375998781685246), (102, 0,
  9788285181375998781685246), (103, 0, 9788285181375998781685246), (104, 0,
  9788285181375998781685246), (105, 0, 9788285181375998781685246), (106, 0,
  9788285181375998781685246), (107, 0, 9788285181375998781685246), (108, 0,
  9788285181375998781685246), (109, 0, 9788285181375998781685246), (110, 0,
  9788285181375998781685246), (111, 0, 9788285181375998781685246), (114, 0,
  9788285181375998781685246), (115, 0, 9750506249513041619975678), (116, 0,
  9750506249513041619975678), (117, 0, 9788285181375998781685246), (118, 0,
  9788285181375998781685246), (119, 0, 9788285181375998781685246), (121, 0,
  9788285181375998781685246), (123, 0, 9788285181375998781685246), (124, 0,
  75558007984038931857816), (125, 0, 75558007984038931857816), (141, 0,
  9788285181375998781685246), (142, 0, 9788285181375998781685246), (143, 0,
  9788285181375998781685246), (144, 0, 9788285181375998781685246), (145, 0,
  9788285181375998781685246), (147, 0, 9788285181375998781685246), (148, 0,
  147573952589676412928), (149, 0, 147573952589676412928), (151, 0, 9788285181375998781685246),
  (152, 0, 9788285181375998781685246), (153, 0, 9788285181375998781685246), (196, 0,
  9788285181375998781685246), (197, 0, 9788285181375998781685246), (198, 0,
  9788285181375998781685246), (199, 0, 9788285181375998781685246), (200, 0,
  9671572577613696783613952), (201, 0, 9671572577613696783613952), (203, 0,
  9788285181375998781685246), (205, 0, 9788285181375998781685246), (206, 0,
  9788285181375998781685246), (207, 0, 9788285181375998781685246), (210, 0,
  9788285181375998781685246), (211, 0, 9788285181375998781685246), (215, 0,
  9788285181375998781685246), (216, 0, 9788285181375998781685246), (219, 0,
  9788285181375998781685246), (220, 0, 9788285181375998781685246), (221, 0,
  9788285181375998781685246), (223, 0, 9788285181375998781685246), (233, 0,
  9788285181375998781685246), (234, 0, 9788285181375998781685246), (242, 0,
  9788285181375998781685246), (243, 0, 9788285181375998781685246), (250, 2,
  38761184091429232353214464), (255, 0, 38761184091429232353214464)],
  [(19, 0, 9750506249513041619975678), (20, 0, 9750506249513041619975678), (21, 0,
  9750506249513041619975678), (22, 0, 9750506249513041619975678), (23, 0,
  9788285181375998781685246), (24, 0, 9788285181375998781685246), (25, 0,
  9788285181375998781685246), (26, 0, 9788285181375998781685246), (27, 0,
  9788285181375998781685246), (28, 0, 9788285181375998781685246), (29, 0,
  9788285181375998781685246), (30, 0, 9788285181375998781685246), (31, 0,
  9788285181375998781685246), (32, 0, 9788285181375998781685246), (33, 0,
  9788285181375998781685246), (34, 0, 9788285181375998781685246), (35, 0,
  9788285181375998781685246), (36, 0, 9788285181375998781685246), (37, 0,
  9788285181375998781685246), (38, 0, 9788285181375998781685246), (39, 0,
  9788285181375998781685246), (40, 0, 9788285181375998781685246), (41, 0,
  9788285181375998781685246), (42, 0, 9788285181375998781685246), (43, 0,
  9788285181375998781685246), (44, 0, 9788285181375998781685246), (45, 0,
  9788285181375998781685246), (46, 0, 9788285181375998781685246), (47, 0,
  9788285181375998781685246), (48, 0, 9788285181375998781685246), (49, 0,
  9788285181375998781685246), (50, 0, 9788285181375998781685246), (51, 0,
  9788285181375998781685246), (52, 0, 9788285181375998781685246), (53, 0,
  9788285181375998781685246), (54, 0, 9788285181375998781685246), (55, 0,
  9788285181375998781685246), (56, 0, 9788285181375998781685246), (57, 0,
  9788285181375998781685246), (58, 0, 9788285181375998781685246), (59, 0,
  9788285181375998781685246), (60, 0, 9788285181375998781685246), (61, 0,
  9788285181375998781685246), (62, 0, 9788285181375998781685246), (63, 0,
  9788285181375998781685246), (64, 0, 9788285181375998781685246), (65, 0,
  9788285181375998781685246), (66, 0, 9788285181375998781685246), (67, 0,
  9788285181375998781685246), (68, 0, 9788285181375998781685246), (69, 0,
  9788285181375998781685246), (70, 0, 14521355333486472297709568), (71, 0,
  14521355333486472297709568), (72, 0, 14521355333486472297709568), (73, 0,
  14521355333486472297709568), (74, 0, 9788285181375998781685246), (75, 0,
  14521355333486472297709568), (76, 0, 14521355333486472297709568), (77, 0,
  14521355333486472297709568), (78, 0, 14521355333486472297709568), (99, 0,
  9788285181375998781685246), (100, 0, 9788285181375998781685246), (101, 0,
  9788285181375998781685246), (102, 0, 9788285181375998781685246), (103, 0,
  9788285181375998781685246), (104, 0, 9788285181375998781685246), (105, 0,
  9788285181375998781685246), (106, 0, 9788285181375998781685246), (107, 0,
  9788285181375998781685246), (108, 0, 9788285181375998781685246), (109, 0,
  9788285181375998781685246), (110, 0, 9788285181375998781685246), (111, 0,
  9788285181375998781685246), (114, 0, 9788285181375998781685246), (115, 0,
  9750506249513041619975678), (116, 0, 9750506249513041619975678), (117, 0,
  9788285181375998781685246), (118, 0, 9788285181375998781685246), (119, 0,
  9788285181375998781685246), (121, 0, 9788285181375998781685246), (123, 0,
  9788285181375998781685246), (124, 0, 75558007984038931857816), (125, 0,
  75558007984038931857816), (141, 0, 9788285181375998781685246), (142, 0,
  9788285181375998781685246), (143, 0, 9788285181375998781685246), (144, 0,
  9788285181375998781685246), (145, 0, 9788285181375998781685246), (147, 0,
  9788285181375998781685246), (148, 0, 147573952589676412928), (149, 0, 147573952589676412928),
  (151, 0, 9788285181375998781685246), (152, 0, 9788285181375998781685246), (153, 0,
  9788285181375998781685246), (196, 0, 9788285181375998781685246), (197, 0,
  9788285181375998781685246), (198, 0, 9788285181375998781685246), (199, 0,
  9788285181375998781685246), (200, 0, 9671572577613696783613952), (201, 0,
  9671572577613696783613952), (203, 0, 9788285181375998781685246), (205, 0,
  9788285181375998781685246), (206, 0, 9788285181375998781685246), (207, 0,
  9788285181375998781685246), (210, 0, 9788285181375998781685246), (211, 0,
  9788285181375998781685246), (215, 0, 9788285181375998781685246), (216, 0,
  9788285181375998781685246), (219, 0, 9788285181375998781685246), (220, 0,
  9788285181375998781685246), (221, 0, 9788285181375998781685246), (223, 0,
  9788285181375998781685246), (233, 0, 9788285181375998781685246), (234, 0,
  9788285181375998781685246), (242, 0, 9788285181375998781685246), (243, 0,
  9788285181375998781685246), (251, 2, 38761184091429232353214464), (253, 2,
  38761184091429232353214464), (255, 0, 38761184091429232353214464)],
  [(252, 2, 38761184091429232353214464)],
  [(255, 1, 38761184091429232353214464)],
  [(264, 2, 38761184091394047914017792), (265, 2, 38761184091394047914017792)],
  [(254, 2, 9788285181375998781685246)],
  [(274, 2, 38761184091394047914017536), (275, 2, 38761184091394047914017536), (276, 2,
  38761184091394047914017536), (278, 0, 38761184091394047914017536)],
  [(277, 2, 38761184091394047914017536), (278, 0, 38761184091394047914017536)],
  [(19, 2, 48436132765411551362285054)],
  [(22, 2, 48436132765411551362285054)],
  [(53, 2, 48473911697274508523994622)],
  [(54, 2, 48473911697274508523994622), (88, 0, 1180591620717411303424), (89, 0,
  1180591620717411303424), (90, 0, 1180591620717411303424), (91, 0, 1180591620717411303424), (94,
  0, 1180591620717411303424), (95, 0, 1180591620717411303424), (96, 0, 1180591620717411303424)],
  [(55, 2, 48473911697274508523994622), (100, 2, 48473911697274508523994622)]]

/-- The items of the states from 150: production, place in it, tokens that may follow. -/
def lalrItems6 : List (List (Nat × Nat × Nat)) := [
  [(56, 2, 48473911697274508523994622)],
  [(67, 2, 48473911697274508523994622), (97, 0, 1182897463726624997376), (98, 0,
  1182897463726624997376)],
  [(68, 2, 48473911697274508523994622), (97, 0, 1182897463726624997376), (98, 0,
  1182897463726624997376)],
  [(66, 2, 48473911697274508523994622)],
  [(69, 2, 48473911697274508523994622), (88, 0, 1181744542222018150400), (89, 0,
  1181744542222018150400), (90, 0, 1181744542222018150400), (91, 0, 1181744542222018150400), (94,
  0, 1181744542222018150400), (95, 0, 1181744542222018150400), (96, 0, 1181744542222018150400),
  (99, 2, 48473911697274508523994622)],
  [(88, 1, 14524900567113688107974656), (92, 0, 14507114735291944675573760), (93, 0,
  14507114735291944675573760), (94, 0, 14507114735291944675573760), (95, 0,
  14507114735291944675573760), (96, 0, 14507114735291944675573760)],
  [(88, 0, 14524900567113688107974656), (89, 0, 14524900567113688107974656), (89, 1,
  14524900567113688107974656), (90, 0, 14524900567113688107974656), (91, 0,
  14524900567113688107974656), (94, 0, 14524900567113688107974656), (95, 0,
  14524900567113688107974656), (96, 0, 14524900567113688107974656)],
  [(90, 1, 14524900567113688107974656)],
  [(91, 1, 14524900567113688107974656)],
  [(94, 1, 14524901431804816563109888)],
  [(95, 1, 14524901431804816563109888)],
  [(96, 1, 14524901431804816563109888)],
  [(74, 2, 48473911697274508523994622), (88, 0, 1152921504606846976), (89, 0,
  1152921504606846976), (90, 0, 1152921504606846976), (91, 0, 1152921504606846976), (94, 0,
  1152921504606846976), (95, 0, 1152921504606846976), (96, 0, 1152921504606846976)],
  [(88, 0, 1152921504606846976), (89, 0, 1152921504606846976), (90, 0, 1152921504606846976), (91,
  0, 1152921504606846976), (94, 0, 1152921504606846976), (95, 0, 1152921504606846976), (96, 0,
  1152921504606846976), (101, 2, 48473911697274508523994622), (102, 2,
  48473911697274508523994622)],
  [(88, 0, 1152921504606846976), (89, 0, 1152921504606846976), (90, 0, 1152921504606846976), (91,
  0, 1152921504606846976), (94, 0, 1152921504606846976), (95, 0, 1152921504606846976), (96, 0,
  1152921504606846976), (103, 2, 48473911697274508523994622)],
  [(88, 0, 1152921504606846976), (89, 0, 1152921504606846976), (90, 0, 1152921504606846976), (91,
  0, 1152921504606846976), (94, 0, 1152921504606846976), (95, 0, 1152921504606846976), (96, 0,
  1152921504606846976), (104, 2, 48473911697274508523994622)],
  [(88, 0, 1152921504606846976), (89, 0, 1152921504606846976), (90, 0, 1152921504606846976), (91,
  0, 1152921504606846976), (94, 0, 1152921504606846976), (95, 0, 1152921504606846976), (96, 0,
  1152921504606846976), (105, 2, 48473911697274508523994622)],
  [(88, 0, 9671407709838538004496384), (89, 0, 9671407709838538004496384), (90, 0,
  9671407709838538004496384), (91, 0, 9671407709838538004496384), (94, 0,
  9671407709838538004496384), (95, 0, 9671407709838538004496384), (96, 0,
  9671407709838538004496384), (106, 2, 48473911697274508523994622), (107, 2,
  48473911697274508523994622)],
  [(79, 0, 14507117329365330040979456), (80, 0, 14507117329365330040979456), (81, 0,
  14507117329365330040979456), (84, 0, 14507117329365330040979456), (85, 0,
  14507117329365330040979456), (86, 0, 14507117329365330040979456), (87, 0,
  14507117329365330040979456), (108, 2, 48473911697274508523994622), (109, 2,
  48473911697274508523994622), (183, 0, 14507117329365330040979456), (184, 0,
  14507117329365330040979456), (185, 0, 14507117329365330040979456), (186, 0,
  14507117329365330040979456), (187, 0, 14507117329365330040979456), (188, 0,
  14507117329365330040979456), (189, 0, 14507117329365330040979456)],
  [(19, 1, 9750506249513041619975678), (21, 0, 9750506249513041619975678), (22, 0,
  9750506249513041619975678), (23, 0, 9788285181375998781685246), (24, 0,
  9788285181375998781685246), (25, 0, 9788285181375998781685246), (26, 0,
  9788285181375998781685246), (27, 0, 9788285181375998781685246), (28, 0,
  9788285181375998781685246), (29, 0, 9788285181375998781685246), (30, 0,
  9788285181375998781685246), (31, 0, 9788285181375998781685246), (32, 0,
  9788285181375998781685246), (33, 0, 9788285181375998781685246), (34, 0,
  9788285181375998781685246), (35, 0, 9788285181375998781685246), (36, 0,
  9788285181375998781685246), (37, 0, 9788285181375998781685246), (38, 0,
  9788285181375998781685246), (39, 0, 9788285181375998781685246), (40, 0,
  9788285181375998781685246), (41, 0, 9788285181375998781685246), (42, 0,
  9788285181375998781685246), (43, 0, 9788285181375998781685246), (44, 0,
  9788285181375998781685246), (45, 0, 9788285181375998781685246), (46, 0,
  9788285181375998781685246), (47, 0, 9788285181375998781685246), (48, 0,
  9788285181375998781685246), (49, 0, 9788285181375998781685246), (50, 0,
  9788285181375998781685246), (51, 0, 9788285181375998781685246), (52, 0,
  9788285181375998781685246), (53, 0, 9788285181375998781685246), (54, 0,
  9788285181375998781685246), (55, 0, 9788285181375998781685246), (56, 0,
  9788285181375998781685246), (57, 0, 9788285181375998781685246), (58, 0,
  9788285181375998781685246), (59, 0, 9788285181375998781685246), (60, 0,
  9788285181375998781685246), (61, 0, 9788285181375998781685246), (62, 0,
  9788285181375998781685246), (63, 0, 9788285181375998781685246), (64, 0,
  9788285181375998781685246), (65, 0, 9788285181375998781685246), (66, 0,
  9788285181375998781685246), (67, 0, 9788285181375998781685246), (68, 0,
  9788285181375998781685246), (69, 0, 9788285181375998781685246), (70, 0,
  14521355333486472297709568), (71, 0, 14521355333486472297709568), (72, 0,
  14521355333486472297709568), (73, 0, 14521355333486472297709568), (74, 0,
  9788285181375998781685246), (75, 0, 14521355333486472297709568), (76, 0,
  14521355333486472297709568), (77, 0, 14521355333486472297709568), (78, 0,
  14521355333486472297709568), (99, 0, 9788285181375998781685246), (100, 0,
  9788285181375998781685246), (101, 0, 9788285181375998781685246), (102, 0,
  9788285181375998781685246), (103, 0, 9788285181375998781685246), (104, 0,
  9788285181375998781685246), (105, 0, 9788285181375998781685246), (106, 0,
  9788285181375998781685246), (107, 0, 9788285181375998781685246), (108, 0,
  9788285181375998781685246), (109, 0, 9788285181375998781685246), (110, 0,
  9788285181375998781685246), (110, 2, 48473911697274508523994622), (111, 0,
  9788285181375998781685246), (114, 0, 9788285181375998781685246), (114, 2,
  48473911697274508523994622), (115, 0, 9750506249513041619975678), (116, 0,
  9750506249513041619975678), (117, 0, 9788285181375998781685246), (118, 0,
  9788285181375998781685246), (119, 0, 9788285181375998781685246), (121, 0,
  9788285181375998781685246), (123, 0, 9788285181375998781685246), (124, 0,
  75558007984038931857816), (125, 0, 75558007984038931857816), (141, 0,
  9788285181375998781685246), (142, 0, 9788285181375998781685246), (143, 0,
  9788285181375998781685246), (144, 0, 9788285181375998781685246), (145, 0,
  9788285181375998781685246), (147, 0, 9788285181375998781685246), (148, 0,
  147573952589676412928), (149, 0, 147573952589676412928), (151, 0, 9788285181375998781685246),
  (152, 0, 9788285181375998781685246), (153, 0, 9788285181375998781685246), (196, 0,
  9788285181375998781685246), (197, 0, 9788285181375998781685246), (198, 0,
  9788285181375998781685246), (199, 0, 9788285181375998781685246), (200, 0,
  9671572577613696783613952), (201, 0, 9671572577613696783613952), (203, 0,
  9788285181375998781685246), (205, 0, 9788285181375998781685246), (206, 0,
  9788285181375998781685246), (207, 0, 9788285181375998781685246), (210, 0,
  9788285181375998781685246), (211, 0, 9788285181375998781685246), (215, 0,
  9788285181375998781685246), (216, 0, 9788285181375998781685246), (219, 0,
  9788285181375998781685246), (220, 0, 9788285181375998781685246), (221, 0,
  9788285181375998781685246), (223, 0, 9788285181375998781685246), (233, 0,
  9788285181375998781685246), (234, 0, 9788285181375998781685246), (242, 0,
  9788285181375998781685246), (243, 0, 9788285181375998781685246)],
  [(111, 2, 48473911697274508523994622)],
  [(117, 2, 48473911697274508523994622), (118, 2, 48473911697274508523994622), (126, 0,
  77919047110285678608792), (127, 0, 77919047110285678608792), (128, 0, 77919047110285678608792),
  (129, 0, 77919047110285678608792), (130, 0, 115697978973242840318360), (131, 0,
  115697978973242840318360), (132, 0, 115697978973242840318360), (133, 0,
  115697978973242840318360), (134, 0, 115697978973242840318360), (135, 0,
  115697978973242840318360), (137, 0, 115697978973242840318360), (139, 0,
  115697978973242840318360), (140, 0, 115697978973242840318360), (148, 0, 147573952589676412928),
  (149, 0, 147573952589676412928)],
  [(119, 2, 48473911697274508523994622), (126, 1, 75558440329603159425432), (128, 0,
  75558440329603159425432), (129, 0, 75558440329603159425432), (130, 0,
  113337372192560321135000), (131, 0, 113337372192560321135000), (132, 0,
  113337372192560321135000), (133, 0, 113337372192560321135000), (134, 0,
  113337372192560321135000), (135, 0, 113337372192560321135000), (137, 0,
  113337372192560321135000), (139, 0, 113337372192560321135000), (140, 0,
  113337372192560321135000), (148, 0, 147573952589676412928), (149, 0, 147573952589676412928)],
  [(127, 1, 77919911801414133744024)],
  [(128, 1, 77919911801414133744024), (129, 1, 77919911801414133744024)]]

/-- The items of the states from 175: production, place in it, tokens that may follow. -/
def lalrItems7 : List (List (Nat × Nat × Nat)) := [
  [(97, 0, 1182897463726624997376), (98, 0, 1182897463726624997376), (130, 1,
  115698843664371295453592)],
  [(97, 0, 1182897463726624997376), (98, 0, 1182897463726624997376), (131, 1,
  115698843664371295453592)],
  [(97, 0, 1182897463726624997376), (98, 0, 1182897463726624997376), (132, 1,
  115698843664371295453592)],
  [(97, 0, 1182897463726624997376), (98, 0, 1182897463726624997376), (133, 1,
  115698843664371295453592)],
  [(97, 0, 1182897463726624997376), (98, 0, 1182897463726624997376), (134, 1,
  115698843664371295453592)],
  [(135, 1, 115698843664371295453592)],
  [(137, 1, 115698843664371295453592), (139, 1, 115698843664371295453592)],
  [(140, 1, 115698843664371295453592)],
  [(120, 0, 75557863868850856001944), (121, 2, 48473911697274508523994622), (123, 2,
  48473911697274508523994622)],
  [(206, 2, 48473911697274508523994622)],
  [(207, 2, 48473911697274508523994622)],
  [(210, 2, 48473911697274508523994622), (235, 0, 48473911697274508523994622), (236, 0,
  48473911697274508523994622), (237, 0, 48473911697274508523994622), (238, 0,
  48473911697274508523994622), (239, 0, 48473911697274508523994622), (240, 0,
  48473911697274508523994622), (241, 0, 48473911697274508523994622)],
  [(211, 2, 48473911697274508523994622), (212, 0, 9671406556917033397780480), (213, 0,
  9671406556917033397780480), (214, 0, 9671406556917033397780480)],
  [(215, 2, 48473911697274508523994622), (235, 0, 9671406556917033397780480), (236, 0,
  9671406556917033397780480), (237, 0, 9671406556917033397780480), (238, 0,
  9671406556917033397780480), (239, 0, 9671406556917033397780480), (240, 0,
  9671406556917033397780480), (241, 0, 9671406556917033397780480)],
  [(216, 2, 48473911697274508523994622), (235, 0, 48473911697274508523994622), (236, 0,
  48473911697274508523994622), (237, 0, 48473911697274508523994622), (238, 0,
  48473911697274508523994622), (239, 0, 48473911697274508523994622), (240, 0,
  48473911697274508523994622), (241, 0, 48473911697274508523994622)],
  [(217, 1, 9671406556917033397780480)],
  [(218, 1, 9671406556917033397780480)],
  [(219, 2, 48473911697274508523994622), (235, 0, 1180591620717411303424), (236, 0,
  1180591620717411303424), (237, 0, 1180591620717411303424), (238, 0, 1180591620717411303424),
  (239, 0, 1180591620717411303424), (240, 0, 1180591620717411303424), (241, 0,
  1180591620717411303424)],
  [(220, 2, 48473911697274508523994622), (235, 0, 1180591620717411303424), (236, 0,
  1180591620717411303424), (237, 0, 1180591620717411303424), (238, 0, 1180591620717411303424),
  (239, 0, 1180591620717411303424), (240, 0, 1180591620717411303424), (241, 0,
  1180591620717411303424)],
  [(221, 2, 48473911697274508523994622), (235, 0, 1180591620717411303424), (236, 0,
  1180591620717411303424), (237, 0, 1180591620717411303424), (238, 0, 1180591620717411303424),
  (239, 0, 1180591620717411303424), (240, 0, 1180591620717411303424), (241, 0,
  1180591620717411303424)],
  [(222, 0, 9671406701032221473505280), (223, 2, 48473911697274508523994622)],
  [(231, 0, 9671408862760042611343360), (232, 0, 9671408862760042611343360), (233, 2,
  48473911697274508523994622), (234, 2, 48473911697274508523994622)],
  [(242, 2, 48473911697274508523994622)],
  [(243, 2, 48473911697274508523994622)],
  [(58, 2, 48473911697274508523994622), (59, 2, 48473911697274508523994622), (60, 2,
  48473911697274508523994622), (61, 2, 48473911697274508523994622)]]

/-- The items of the states from 200: production, place in it, tokens that may follow. -/
def lalrItems8 : List (List (Nat × Nat × Nat)) := [
  [(62, 2, 48473911697274508523994622)],
  [(63, 2, 48473911697274508523994622)],
  [(64, 2, 48473911697274508523994622), (65, 2, 48473911697274508523994622)],
  [(115, 2, 9750506249513041619975678), (116, 2, 9750506249513041619975678)],
  [(124, 2, 75558007984038931857816), (125, 2, 75558007984038931857816)],
  [(147, 2, 48473911697274508523994622)],
  [(150, 0, 9671409583335982990622720), (151, 2, 48473911697274508523994622)],
  [(152, 2, 48473911697274508523994622)],
  [(153, 2, 48473911697274508523994622)],
  [(203, 2, 48473911697274508523994622), (204, 0, 9671572577613696783613952), (205, 2,
  48473911697274508523994622)],
  [(169, 1, 19231379215188548911104), (170, 1, 19231379215188548911104), (171, 1,
  19231379215188548911104), (172, 1, 19231379215188548911104), (173, 1, 19231379215188548911104),
  (198, 2, 48473911697274508523994622), (199, 2, 48473911697274508523994622)],
  [(167, 1, 21594868299632585211904)],
  [(167, 0, 21594868299632585211904), (168, 0, 21594868299632585211904), (168, 1,
  21594868299632585211904), (169, 0, 21594868299632585211904), (170, 0, 21594868299632585211904),
  (171, 0, 21594868299632585211904), (172, 0, 21594868299632585211904), (173, 0,
  21594868299632585211904), (174, 0, 21594868299632585211904)],
  [(167, 0, 19231379215188548911104), (168, 0, 19231379215188548911104), (169, 0,
  19231379215188548911104), (170, 0, 19231379215188548911104), (171, 0, 19231379215188548911104),
  (172, 0, 19231379215188548911104), (173, 0, 19231379215188548911104), (174, 0,
  19231379215188548911104), (174, 1, 21594868299632585211904)],
  [(200, 2, 9671572577613696783613952), (201, 2, 9671572577613696783613952)],
  [(246, 2, 38761184091429232353214464)],
  [(260, 2, 38761184091394047914017792)],
  [(268, 2, 38761184091394047914017536)],
  [(14, 3, 9748145066271606797368830)],
  [(15, 3, 9748145066271606797368830)],
  [(16, 1, 1181168081469714726912)],
  [(17, 1, 1181168081469714726912)],
  [(250, 3, 38761184091429232353214464)],
  [(19, 1, 9750506249513041619975678), (21, 0, 9750506249513041619975678), (22, 0,
  9750506249513041619975678), (23, 0, 9788285181375998781685246), (24, 0,
  9788285181375998781685246), (25, 0, 9788285181375998781685246), (26, 0,
  9788285181375998781685246), (27, 0, 9788285181375998781685246), (28, 0,
  9788285181375998781685246), (29, 0, 9788285181375998781685246), (30, 0,
  9788285181375998781685246), (31, 0, 9788285181375998781685246), (32, 0,
  9788285181375998781685246), (33, 0, 9788285181375998781685246), (34, 0,
  9788285181375998781685246), (35, 0, 9788285181375998781685246), (36, 0,
  9788285181375998781685246), (37, 0, 9788285181375998781685246), (38, 0,
  9788285181375998781685246), (39, 0, 9788285181375998781685246), (40, 0,
  9788285181375998781685246), (41, 0, 9788285181375998781685246), (42, 0,
  9788285181375998781685246), (43, 0, 9788285181375998781685246), (44, 0,
  9788285181375998781685246), (45, 0, 9788285181375998781685246), (46, 0,
  9788285181375998781685246), (47, 0, 9788285181375998781685246), (48, 0,
  9788285181375998781685246), (49, 0, 9788285181375998781685246), (50, 0,
  9788285181375998781685246), (51, 0, 9788285181375998781685246), (52, 0,
  9788285181375998781685246), (53, 0, 9788285181375998781685246), (54, 0,
  9788285181375998781685246), (55, 0, 9788285181375998781685246), (56, 0,
  9788285181375998781685246), (57, 0, 9788285181375998781685246), (58, 0,
  9788285181375998781685246), (59, 0, 9788285181375998781685246), (60, 0,
  9788285181375998781685246), (61, 0, 9788285181375998781685246), (62, 0,
  9788285181375998781685246), (63, 0, 9788285181375998781685246), (64, 0,
  9788285181375998781685246), (65, 0, 9788285181375998781685246), (66, 0,
  9788285181375998781685246), (67, 0, 9788285181375998781685246), (68, 0,
  9788285181375998781685246), (69, 0, 9788285181375998781685246), (70, 0,
  14521355333486472297709568), (71, 0, 14521355333486472297709568), (72, 0,
  14521355333486472297709568), (73, 0, 14521355333486472297709568), (74, 0,
  9788285181375998781685246), (75, 0, 14521355333486472297709568), (76, 0,
  14521355333486472297709568), (77, 0, 14521355333486472297709568), (78, 0,
  14521355333486472297709568), (99, 0, 9788285181375998781685246), (100, 0,
  9788285181375998781685246), (101, 0, 9788285181375998781685246), (102, 0,
  9788285181375998781685246), (103, 0, 9788285181375998781685246), (104, 0,
  9788285181375998781685246), (105, 0, 9788285181375998781685246), (106, 0,
  9788285181375998781685246), (107, 0, 9788285181375998781685246), (108, 0,
  9788285181375998781685246), (109, 0, 9788285181375998781685246), (110, 0,
  9788285181375998781685246), (111, 0, 9788285181375998781685246), (114, 0,
  9788285181375998781685246), (115, 0, 9750506249513041619975678), (116, 0,
  9750506249513041619975678), (117, 0, 9788285181375998781685246), (118, 0,
  9788285181375998781685246), (119, 0, 9788285181375998781685246), (121, 0,
  9788285181375998781685246), (123, 0, 9788285181375998781685246), (124, 0,
  75558007984038931857816), (125, 0, 75558007984038931857816), (141, 0,
  9788285181375998781685246), (142, 0, 9788285181375998781685246), (143, 0,
  9788285181375998781685246), (144, 0, 9788285181375998781685246), (145, 0,
  9788285181375998781685246), (147, 0, 9788285181375998781685246), (148, 0,
  147573952589676412928), (149, 0, 147573952589676412928), (151, 0, 9788285181375998781685246),
  (152, 0, 9788285181375998781685246), (153, 0, 9788285181375998781685246), (196, 0,
  9788285181375998781685246), (197, 0, 9788285181375998781685246), (198, 0,
  9788285181375998781685246), (199, 0, 9788285181375998781685246), (200, 0,
  9671572577613696783613952), (201, 0, 9671572577613696783613952), (203, 0,
  9788285181375998781685246), (205, 0, 9788285181375998781685246), (206, 0,
  9788285181375998781685246), (207, 0, 9788285181375998781685246), (210, 0,
  9788285181375998781685246), (211, 0, 9788285181375998781685246), (215, 0,
  9788285181375998781685246), (216, 0, 9788285181375998781685246), (219, 0,
  9788285181375998781685246), (220, 0, 9788285181375998781685246), (221, 0,
  9788285181375998781685246), (223, 0, 9788285181375998781685246), (233, 0,
  9788285181375998781685246), (234, 0, 9788285181375998781685246), (242, 0,
  9788285181375998781685246), (243, 0, 9788285181375998781685246), (251, 3,
  38761184091429232353214464), (255, 0, 38761184091429232353214464)],
  [(253, 3, 38761184091429232353214464)]]

/-- The items of the states from 225: production, place in it, tokens that may follow. -/
def lalrItems9 : List (List (Nat × Nat × Nat)) := [
  [(255, 2, 38761184091429232353214464)],
  [(264, 3, 38761184091394047914017792), (265, 3, 38761184091394047914017792)],
  [(254, 3, 9788285181375998781685246)],
  [(274, 3, 38761184091394047914017536)],
  [(275, 3, 38761184091394047914017536), (276, 3, 38761184091394047914017536)],
  [(278, 1, 38761184091394047914017536), (279, 0, 9746964708873323872780288), (280, 0,
  9746964708873323872780288), (281, 0, 9746964708873323872780288), (282, 0,
  9746964708873323872780288)],
  [(277, 3, 38761184091394047914017536)],
  [(53, 3, 48473911697274508523994622)],
  [(54, 3, 48473911697274508523994622)],
  [(55, 3, 48473911697274508523994622)],
  [(88, 0, 1180591620717411303424), (89, 0, 1180591620717411303424), (90, 0,
  1180591620717411303424), (91, 0, 1180591620717411303424), (94, 0, 1180591620717411303424), (95,
  0, 1180591620717411303424), (96, 0, 1180591620717411303424), (100, 3,
  48473911697274508523994622)],
  [(56, 3, 48473911697274508523994622)],
  [(67, 3, 48473911697274508523994622), (97, 1, 1182897463726624997376)],
  [(98, 1, 1182897463726624997376)],
  [(68, 3, 48473911697274508523994622), (97, 1, 1182897463726624997376)],
  [(66, 3, 48473911697274508523994622), (88, 0, 1180591620717411303424), (89, 0,
  1180591620717411303424), (90, 0, 1180591620717411303424), (91, 0, 1180591620717411303424), (94,
  0, 1180591620717411303424), (95, 0, 1180591620717411303424), (96, 0, 1180591620717411303424)],
  [(69, 3, 48473911697274508523994622), (99, 3, 48473911697274508523994622)],
  [(88, 2, 14524900567113688107974656), (92, 1, 14507114735291944675573760), (94, 0,
  14507114735291944675573760), (95, 0, 14507114735291944675573760), (96, 0,
  14507114735291944675573760)],
  [(93, 1, 14509478224376388711874560)],
  [(89, 2, 14524900567113688107974656)],
  [(95, 2, 14524901431804816563109888)],
  [(74, 3, 48473911697274508523994622)],
  [(101, 3, 48473911697274508523994622), (102, 3, 48473911697274508523994622)],
  [(103, 3, 48473911697274508523994622)],
  [(104, 3, 48473911697274508523994622)]]

/-- The items of the states from 250: production, place in it, tokens that may follow. -/
def lalrItems10 : List (List (Nat × Nat × Nat)) := [
  [(105, 3, 48473911697274508523994622)],
  [(106, 3, 48473911697274508523994622), (107, 3, 48473911697274508523994622)],
  [(94, 0, 14507117329365330040979456), (95, 0, 14507117329365330040979456), (96, 0,
  14507117329365330040979456), (108, 3, 48473911697274508523994622), (188, 1,
  14507117329365330040979456), (189, 1, 14507117329365330040979456)],
  [(109, 3, 48473911697274508523994622)],
  [(187, 1, 14507117329365330040979456)],
  [(183, 1, 14507117329365330040979456)],
  [(184, 1, 14507117329365330040979456)],
  [(92, 0, 14509475630303003346468864), (93, 0, 14509475630303003346468864), (94, 0,
  14509475630303003346468864), (95, 0, 14509475630303003346468864), (96, 0,
  14509475630303003346468864), (185, 1, 14507117329365330040979456), (186, 1,
  14507117329365330040979456)],
  [(79, 1, 14508297920986047452282880), (82, 0, 13298188915677315500867584), (83, 0,
  13298188915677315500867584), (84, 0, 13298188915677315500867584), (85, 0,
  13298188915677315500867584), (86, 0, 13298188915677315500867584), (87, 0,
  13298188915677315500867584)],
  [(79, 0, 14508297920986047452282880), (80, 0, 14508297920986047452282880), (80, 1,
  14508297920986047452282880), (81, 0, 14508297920986047452282880), (84, 0,
  14508297920986047452282880), (85, 0, 14508297920986047452282880), (86, 0,
  14508297920986047452282880), (87, 0, 14508297920986047452282880)],
  [(81, 1, 14508297920986047452282880)],
  [(84, 1, 18135075668060311128113152)],
  [(85, 1, 18135075668060311128113152)],
  [(86, 1, 18135075668060311128113152)],
  [(87, 1, 18135075668060311128113152)],
  [(110, 3, 48473911697274508523994622), (114, 3, 48473911697274508523994622)],
  [(111, 3, 48473911697274508523994622)],
  [(117, 3, 48473911697274508523994622), (126, 1, 77919047110285678608792), (128, 0,
  77919047110285678608792), (129, 0, 77919047110285678608792), (130, 0,
  115697978973242840318360), (131, 0, 115697978973242840318360), (132, 0,
  115697978973242840318360), (133, 0, 115697978973242840318360), (134, 0,
  115697978973242840318360), (135, 0, 115697978973242840318360), (137, 0,
  115697978973242840318360), (139, 0, 115697978973242840318360), (140, 0,
  115697978973242840318360), (148, 0, 147573952589676412928), (149, 0, 147573952589676412928)],
  [(118, 3, 48473911697274508523994622), (126, 0, 77919047110285678608792), (127, 0,
  77919047110285678608792), (128, 0, 77919047110285678608792), (129, 0, 77919047110285678608792),
  (130, 0, 115697978973242840318360), (131, 0, 115697978973242840318360), (132, 0,
  115697978973242840318360), (133, 0, 115697978973242840318360), (134, 0,
  115697978973242840318360), (135, 0, 115697978973242840318360), (137, 0,
  115697978973242840318360), (139, 0, 115697978973242840318360), (140, 0,
  115697978973242840318360), (148, 0, 147573952589676412928), (149, 0, 147573952589676412928)],
  [(119, 3, 48473911697274508523994622)],
  [(126, 2, 77919911801414133744024)],
  [(129, 2, 77919911801414133744024)],
  [(97, 1, 1182897463726624997376), (130, 2, 115698843664371295453592)],
  [(97, 1, 1182897463726624997376), (131, 2, 115698843664371295453592)],
  [(97, 1, 1182897463726624997376), (132, 2, 115698843664371295453592)]]

/-- The items of the states from 275: production, place in it, tokens that may follow. -/
def lalrItems11 : List (List (Nat × Nat × Nat)) := [
  [(97, 1, 1182897463726624997376), (133, 2, 115698843664371295453592)],
  [(97, 1, 1182897463726624997376), (134, 2, 115698843664371295453592)],
  [(88, 0, 1180591620717411303424), (89, 0, 1180591620717411303424), (90, 0,
  1180591620717411303424), (91, 0, 1180591620717411303424), (94, 0, 1180591620717411303424), (95,
  0, 1180591620717411303424), (96, 0, 1180591620717411303424), (135, 2,
  115698843664371295453592)],
  [(137, 2, 115698843664371295453592), (139, 2, 115698843664371295453592)],
  [(121, 3, 48473911697274508523994622), (126, 0, 75558152099227007713688), (127, 0,
  75558152099227007713688), (128, 0, 75558152099227007713688), (129, 0, 75558152099227007713688),
  (130, 0, 113337083962184169423256), (131, 0, 113337083962184169423256), (132, 0,
  113337083962184169423256), (133, 0, 113337083962184169423256), (134, 0,
  113337083962184169423256), (135, 0, 113337083962184169423256), (137, 0,
  113337083962184169423256), (139, 0, 113337083962184169423256), (140, 0,
  113337083962184169423256), (148, 0, 147573952589676412928), (149, 0, 147573952589676412928)],
  [(122, 0, 75557863868850856001944), (123, 3, 48473911697274508523994622)],
  [(206, 3, 48473911697274508523994622), (208, 0, 48473911697274508523994622), (209, 0,
  48473911697274508523994622), (235, 0, 48473911697274508523994622), (236, 0,
  48473911697274508523994622), (237, 0, 48473911697274508523994622), (238, 0,
  48473911697274508523994622), (239, 0, 48473911697274508523994622), (240, 0,
  48473911697274508523994622), (241, 0, 48473911697274508523994622)],
  [(207, 3, 48473911697274508523994622), (208, 0, 48473911697274508523994622), (209, 0,
  48473911697274508523994622), (235, 0, 48473911697274508523994622), (236, 0,
  48473911697274508523994622), (237, 0, 48473911697274508523994622), (238, 0,
  48473911697274508523994622), (239, 0, 48473911697274508523994622), (240, 0,
  48473911697274508523994622), (241, 0, 48473911697274508523994622)],
  [(210, 3, 48473911697274508523994622)],
  [(235, 1, 48473911697274508524125694)],
  [(236, 1, 48473911697274508524125694), (237, 1, 48473911697274508524125694), (238, 1,
  48473911697274508524125694), (239, 1, 48473911697274508524125694)],
  [(240, 1, 48473914579578270041243134), (241, 1, 48473914579578270041243134)],
  [(211, 3, 48473911697274508523994622), (235, 0, 48473911697274508523994622), (236, 0,
  48473911697274508523994622), (237, 0, 48473911697274508523994622), (238, 0,
  48473911697274508523994622), (239, 0, 48473911697274508523994622), (240, 0,
  48473911697274508523994622), (241, 0, 48473911697274508523994622)],
  [(212, 1, 9671406556917033397780480)],
  [(213, 1, 9671406556917033397780480), (214, 1, 9671406556917033397780480)],
  [(215, 3, 48473911697274508523994622), (235, 0, 48473911697274508523994622), (236, 0,
  48473911697274508523994622), (237, 0, 48473911697274508523994622), (238, 0,
  48473911697274508523994622), (239, 0, 48473911697274508523994622), (240, 0,
  48473911697274508523994622), (241, 0, 48473911697274508523994622)],
  [(216, 3, 48473911697274508523994622)],
  [(217, 2, 9671406556917033397780480)],
  [(218, 2, 9671406556917033397780480)],
  [(219, 3, 48473911697274508523994622)],
  [(220, 3, 48473911697274508523994622)],
  [(221, 3, 48473911697274508523994622)],
  [(223, 3, 48473911697274508523994622), (224, 0, 2882303761517117440), (225, 0,
  2882303761517117440)],
  [(231, 0, 14507114447061568523862016), (232, 0, 14507114447061568523862016), (233, 3,
  48473911697274508523994622), (234, 3, 48473911697274508523994622)],
  [(231, 1, 14507116752904577737555968)]]

/-- The items of the states from 300: production, place in it, tokens that may follow. -/
def lalrItems12 : List (List (Nat × Nat × Nat)) := [
  [(232, 1, 14507116752904577737555968)],
  [(242, 3, 48473911697274508523994622)],
  [(243, 3, 48473911697274508523994622)],
  [(58, 3, 48473911697274508523994622)],
  [(59, 3, 48473911697274508523994622), (97, 0, 1182897463726624997376), (98, 0,
  1182897463726624997376)],
  [(60, 3, 48473911697274508523994622), (61, 3, 48473911697274508523994622), (88, 0,
  1182897463726624997376), (89, 0, 1182897463726624997376), (90, 0, 1182897463726624997376), (91,
  0, 1182897463726624997376), (94, 0, 1182897463726624997376), (95, 0, 1182897463726624997376),
  (96, 0, 1182897463726624997376)],
  [(62, 3, 48473911697274508523994622)],
  [(63, 3, 48473911697274508523994622)],
  [(64, 3, 48473911697274508523994622)],
  [(65, 3, 48473911697274508523994622)],
  [(115, 3, 9750506249513041619975678), (116, 3, 9750506249513041619975678)],
  [(125, 3, 75558007984038931857816)],
  [(147, 3, 48473911697274508523994622)],
  [(151, 3, 48473911697274508523994622), (175, 0, 9671409583335982990622720), (176, 0,
  2882303761517117440), (178, 0, 2882303761517117440)],
  [(152, 3, 48473911697274508523994622), (154, 0, 2361183241434822606848), (155, 0,
  2361183241434822606848), (156, 0, 2361183241434822606848), (157, 0, 9675769067775277630750720),
  (158, 0, 9675769067775277630750720), (159, 0, 9675769067775277630750720), (160, 0,
  9675769067775277630750720), (161, 0, 9675769067775277630750720), (162, 0,
  9675769067775277630750720), (163, 0, 9675769067775277630750720), (164, 0,
  9675769067775277630750720), (165, 0, 9675769067775277630750720), (166, 0,
  9675769067775277630750720)],
  [(19, 0, 9750506249513041619975678), (20, 0, 9750506249513041619975678), (21, 0,
  9750506249513041619975678), (22, 0, 9750506249513041619975678), (23, 0,
  9788285181375998781685246), (24, 0, 9788285181375998781685246), (25, 0,
  9788285181375998781685246), (26, 0, 9788285181375998781685246), (27, 0,
  9788285181375998781685246), (28, 0, 9788285181375998781685246), (29, 0,
  9788285181375998781685246), (30, 0, 9788285181375998781685246), (31, 0,
  9788285181375998781685246), (32, 0, 9788285181375998781685246), (33, 0,
  9788285181375998781685246), (34, 0, 9788285181375998781685246), (35, 0,
  9788285181375998781685246), (36, 0, 9788285181375998781685246), (37, 0,
  9788285181375998781685246), (38, 0, 9788285181375998781685246), (39, 0,
  9788285181375998781685246), (40, 0, 9788285181375998781685246), (41, 0,
  9788285181375998781685246), (42, 0, 9788285181375998781685246), (43, 0,
  9788285181375998781685246), (44, 0, 9788285181375998781685246), (45, 0,
  9788285181375998781685246), (46, 0, 9788285181375998781685246), (47, 0,
  9788285181375998781685246), (48, 0, 9788285181375998781685246), (49, 0,
  9788285181375998781685246), (50, 0, 9788285181375998781685246), (51, 0,
  9788285181375998781685246), (52, 0, 9788285181375998781685246), (53, 0,
  9788285181375998781685246), (54, 0, 9788285181375998781685246), (55, 0,
  9788285181375998781685246), (56, 0, 9788285181375998781685246), (57, 0,
  9788285181375998781685246), (58, 0, 9788285181375998781685246), (59, 0,
  9788285181375998781685246), (60, 0, 9788285181375998781685246), (61, 0,
  9788285181375998781685246), (62, 0, 9788285181375998781685246), (63, 0,
  9788285181375998781685246), (64, 0, 9788285181375998781685246), (65, 0,
  9788285181375998781685246), (66, 0, 9788285181375998781685246), (67, 0,
  9788285181375998781685246), (68, 0, 9788285181375998781685246), (69, 0,
  9788285181375998781685246), (70, 0, 14521355333486472297709568), (71, 0,
  14521355333486472297709568), (72, 0, 14521355333486472297709568), (73, 0,
  14521355333486472297709568), (74, 0, 9788285181375998781685246), (75, 0,
  14521355333486472297709568), (76, 0, 14521355333486472297709568), (77, 0,
  14521355333486472297709568), (78, 0, 14521355333486472297709568), (99, 0,
  9788285181375998781685246), (100, 0, 9788285181375998781685246), (101, 0,
  9788285181375998781685246), (102, 0, 9788285181375998781685246), (103, 0,
  9788285181375998781685246), (104, 0, 9788285181375998781685246), (105, 0,
  9788285181375998781685246), (106, 0, 9788285181375998781685246), (107, 0,
  9788285181375998781685246), (108, 0, 9788285181375998781685246), (109, 0,
  9788285181375998781685246), (110, 0, 9788285181375998781685246), (111, 0,
  9788285181375998781685246), (114, 0, 9788285181375998781685246), (115, 0,
  9750506249513041619975678), (116, 0, 9750506249513041619975678), (117, 0,
  9788285181375998781685246), (118, 0, 9788285181375998781685246), (119, 0,
  9788285181375998781685246), (121, 0, 9788285181375998781685246), (123, 0,
  9788285181375998781685246), (124, 0, 75558007984038931857816), (125, 0,
  75558007984038931857816), (141, 0, 9788285181375998781685246), (142, 0,
  9788285181375998781685246), (143, 0, 9788285181375998781685246), (144, 0,
  9788285181375998781685246), (145, 0, 9788285181375998781685246), (147, 0,
  9788285181375998781685246), (148, 0, 147573952589676412928), (149, 0, 147573952589676412928),
  (151, 0, 9788285181375998781685246), (152, 0, 9788285181375998781685246), (153, 0,
  9788285181375998781685246), (153, 3, 48473911697274508523994622), (196, 0,
  9788285181375998781685246), (197, 0, 9788285181375998781685246), (198, 0,
  9788285181375998781685246), (199, 0, 9788285181375998781685246), (200, 0,
  9671572577613696783613952), (201, 0, 9671572577613696783613952), (203, 0,
  9788285181375998781685246), (205, 0, 9788285181375998781685246), (206, 0,
  9788285181375998781685246), (207, 0, 9788285181375998781685246), (210, 0,
  9788285181375998781685246), (211, 0, 9788285181375998781685246), (215, 0,
  9788285181375998781685246), (216, 0, 9788285181375998781685246), (219, 0,
  9788285181375998781685246), (220, 0, 9788285181375998781685246), (221, 0,
  9788285181375998781685246), (223, 0, 9788285181375998781685246), (233, 0,
  9788285181375998781685246), (234, 0, 9788285181375998781685246), (242, 0,
  9788285181375998781685246), (243, 0, 9788285181375998781685246)],
  [(202, 0, 9671572577613696783613952), (203, 3, 48473911697274508523994622)],
  [(167, 0, 19233108597445459181568), (168, 0, 19233108597445459181568), (169, 0,
  19233108597445459181568), (170, 0, 19233108597445459181568), (171, 0, 19233108597445459181568),
  (172, 0, 19233108597445459181568), (173, 0, 19233108597445459181568), (174, 0,
  19233108597445459181568), (205, 3, 48473911697274508523994622)],
  [(167, 0, 21594868299632585211904), (168, 0, 21594868299632585211904), (169, 0,
  21594868299632585211904), (169, 2, 21594868299632585211904), (170, 0, 21594868299632585211904),
  (171, 0, 21594868299632585211904), (172, 0, 21594868299632585211904), (173, 0,
  21594868299632585211904), (174, 0, 21594868299632585211904)],
  [(167, 0, 21594868299632585211904), (168, 0, 21594868299632585211904), (169, 0,
  21594868299632585211904), (170, 0, 21594868299632585211904), (170, 2, 21594868299632585211904),
  (171, 0, 21594868299632585211904), (172, 0, 21594868299632585211904), (173, 0,
  21594868299632585211904), (174, 0, 21594868299632585211904)],
  [(167, 0, 21594868299632585211904), (168, 0, 21594868299632585211904), (169, 0,
  21594868299632585211904), (170, 0, 21594868299632585211904), (171, 0, 21594868299632585211904),
  (171, 2, 21594868299632585211904), (172, 0, 21594868299632585211904), (173, 0,
  21594868299632585211904), (174, 0, 21594868299632585211904)],
  [(167, 0, 21594868299632585211904), (168, 0, 21594868299632585211904), (169, 0,
  21594868299632585211904), (170, 0, 21594868299632585211904), (171, 0, 21594868299632585211904),
  (172, 0, 21594868299632585211904), (172, 2, 21594868299632585211904), (173, 0,
  21594868299632585211904), (174, 0, 21594868299632585211904)],
  [(167, 0, 21594868299632585211904), (168, 0, 21594868299632585211904), (169, 0,
  21594868299632585211904), (170, 0, 21594868299632585211904), (171, 0, 21594868299632585211904),
  (172, 0, 21594868299632585211904), (173, 0, 21594868299632585211904), (173, 2,
  21594868299632585211904), (174, 0, 21594868299632585211904)],
  [(198, 3, 48473911697274508523994622), (199, 3, 48473911697274508523994622)],
  [(168, 2, 21594868299632585211904), (169, 1, 21594868299632585211904), (170, 1,
  21594868299632585211904), (171, 1, 21594868299632585211904), (172, 1, 21594868299632585211904),
  (173, 1, 21594868299632585211904)]]

/-- The items of the states from 325: production, place in it, tokens that may follow. -/
def lalrItems13 : List (List (Nat × Nat × Nat)) := [
  [(169, 1, 19231379215188548911104), (170, 1, 19231379215188548911104), (171, 1,
  19231379215188548911104), (172, 1, 19231379215188548911104), (173, 1, 19231379215188548911104),
  (174, 2, 21594868299632585211904)],
  [(201, 3, 9671572577613696783613952)],
  [(14, 4, 9748145066271606797368830), (16, 0, 576460752303423488), (17, 0, 576460752303423488)],
  [(15, 4, 9748145066271606797368830)],
  [(251, 4, 38761184091429232353214464)],
  [(264, 4, 38761184091394047914017792), (265, 4, 38761184091394047914017792)],
  [(254, 4, 9788285181375998781685246)],
  [(275, 4, 38761184091394047914017536), (276, 4, 38761184091394047914017536), (278, 0,
  38761184091394047914017536)],
  [(278, 2, 38761184091394047914017536), (279, 1, 9746964708873323872780288), (281, 0,
  9746964708873323872780288), (282, 0, 9746964708873323872780288)],
  [(280, 1, 9746964708873323872780288)],
  [(281, 1, 9746964708873323872780288)],
  [(282, 1, 9746964708873323872780288)],
  [(54, 4, 48473911697274508523994622)],
  [(100, 4, 48473911697274508523994622)],
  [(67, 4, 48473911697274508523994622)],
  [(97, 2, 1182897463726624997376)],
  [(68, 4, 48473911697274508523994622)],
  [(66, 4, 48473911697274508523994622)],
  [(69, 4, 48473911697274508523994622), (88, 0, 14521355333486472297709568), (89, 0,
  14521355333486472297709568), (90, 0, 14521355333486472297709568), (91, 0,
  14521355333486472297709568), (94, 0, 14521355333486472297709568), (95, 0,
  14521355333486472297709568), (96, 0, 14521355333486472297709568)],
  [(99, 4, 48473911697274508523994622)],
  [(88, 3, 14524900567113688107974656)],
  [(92, 2, 14509478224376388711874560)],
  [(74, 4, 48473911697274508523994622), (88, 0, 9671406556917033397649408), (89, 0,
  9671406556917033397649408), (90, 0, 9671406556917033397649408), (91, 0,
  9671406556917033397649408), (94, 0, 9671406556917033397649408), (95, 0,
  9671406556917033397649408), (96, 0, 9671406556917033397649408)],
  [(88, 0, 9671406556917033397649408), (89, 0, 9671406556917033397649408), (90, 0,
  9671406556917033397649408), (91, 0, 9671406556917033397649408), (94, 0,
  9671406556917033397649408), (95, 0, 9671406556917033397649408), (96, 0,
  9671406556917033397649408), (101, 4, 48473911697274508523994622), (102, 4,
  48473911697274508523994622)],
  [(88, 0, 9671406556917033397649408), (89, 0, 9671406556917033397649408), (90, 0,
  9671406556917033397649408), (91, 0, 9671406556917033397649408), (94, 0,
  9671406556917033397649408), (95, 0, 9671406556917033397649408), (96, 0,
  9671406556917033397649408), (103, 4, 48473911697274508523994622)]]

/-- The items of the states from 350: production, place in it, tokens that may follow. -/
def lalrItems14 : List (List (Nat × Nat × Nat)) := [
  [(88, 0, 9671406556917033397649408), (89, 0, 9671406556917033397649408), (90, 0,
  9671406556917033397649408), (91, 0, 9671406556917033397649408), (94, 0,
  9671406556917033397649408), (95, 0, 9671406556917033397649408), (96, 0,
  9671406556917033397649408), (104, 4, 48473911697274508523994622)],
  [(88, 0, 9671406556917033397649408), (89, 0, 9671406556917033397649408), (90, 0,
  9671406556917033397649408), (91, 0, 9671406556917033397649408), (94, 0,
  9671406556917033397649408), (95, 0, 9671406556917033397649408), (96, 0,
  9671406556917033397649408), (105, 4, 48473911697274508523994622)],
  [(106, 4, 48473911697274508523994622)],
  [(88, 0, 9671406556917033397649408), (89, 0, 9671406556917033397649408), (90, 0,
  9671406556917033397649408), (91, 0, 9671406556917033397649408), (94, 0,
  9671406556917033397649408), (95, 0, 9671406556917033397649408), (96, 0,
  9671406556917033397649408), (107, 4, 48473911697274508523994622)],
  [(108, 4, 48473911697274508523994622)],
  [(79, 0, 14507117329365330040979456), (80, 0, 14507117329365330040979456), (81, 0,
  14507117329365330040979456), (84, 0, 14507117329365330040979456), (85, 0,
  14507117329365330040979456), (86, 0, 14507117329365330040979456), (87, 0,
  14507117329365330040979456), (183, 0, 14507117329365330040979456), (184, 0,
  14507117329365330040979456), (185, 0, 14507117329365330040979456), (186, 0,
  14507117329365330040979456), (188, 2, 14507117329365330040979456)],
  [(189, 2, 14507117329365330040979456)],
  [(92, 1, 14509475630303003346468864), (94, 0, 14509475630303003346468864), (95, 0,
  14509475630303003346468864), (96, 0, 14509475630303003346468864), (185, 2,
  14507117329365330040979456)],
  [(186, 2, 14507117329365330040979456)],
  [(79, 2, 14508297920986047452282880), (82, 1, 13298188915677315500867584), (84, 0,
  13298188915677315500867584), (85, 0, 13298188915677315500867584), (86, 0,
  13298188915677315500867584), (87, 0, 13298188915677315500867584)],
  [(83, 1, 13298188915677315500867584)],
  [(80, 2, 14508297920986047452282880)],
  [(110, 4, 48473911697274508523994622)],
  [(112, 0, 144115188075855872), (114, 4, 48473911697274508523994622)],
  [(117, 4, 48473911697274508523994622)],
  [(118, 4, 48473911697274508523994622), (126, 1, 77919047110285678608792), (128, 0,
  77919047110285678608792), (129, 0, 77919047110285678608792), (130, 0,
  115697978973242840318360), (131, 0, 115697978973242840318360), (132, 0,
  115697978973242840318360), (133, 0, 115697978973242840318360), (134, 0,
  115697978973242840318360), (135, 0, 115697978973242840318360), (137, 0,
  115697978973242840318360), (139, 0, 115697978973242840318360), (140, 0,
  115697978973242840318360), (148, 0, 147573952589676412928), (149, 0, 147573952589676412928)],
  [(130, 3, 115698843664371295453592)],
  [(131, 3, 115698843664371295453592)],
  [(132, 3, 115698843664371295453592)],
  [(133, 3, 115698843664371295453592)],
  [(134, 3, 115698843664371295453592)],
  [(135, 3, 115698843664371295453592)],
  [(137, 3, 115698843664371295453592), (139, 3, 115698843664371295453592)],
  [(121, 4, 48473911697274508523994622), (126, 1, 75558152099227007713688), (128, 0,
  75558152099227007713688), (129, 0, 75558152099227007713688), (130, 0,
  113337083962184169423256), (131, 0, 113337083962184169423256), (132, 0,
  113337083962184169423256), (133, 0, 113337083962184169423256), (134, 0,
  113337083962184169423256), (135, 0, 113337083962184169423256), (137, 0,
  113337083962184169423256), (139, 0, 113337083962184169423256), (140, 0,
  113337083962184169423256), (148, 0, 147573952589676412928), (149, 0, 147573952589676412928)],
  [(123, 4, 48473911697274508523994622), (126, 0, 75558152099227007713688), (127, 0,
  75558152099227007713688), (128, 0, 75558152099227007713688), (129, 0, 75558152099227007713688),
  (130, 0, 113337083962184169423256), (131, 0, 113337083962184169423256), (132, 0,
  113337083962184169423256), (133, 0, 113337083962184169423256), (134, 0,
  113337083962184169423256), (135, 0, 113337083962184169423256), (137, 0,
  113337083962184169423256), (139, 0, 113337083962184169423256), (140, 0,
  113337083962184169423256), (148, 0, 147573952589676412928), (149, 0, 147573952589676412928)]]

/-- The items of the states from 375: production, place in it, tokens that may follow. -/
def lalrItems15 : List (List (Nat × Nat × Nat)) := [
  [(206, 4, 48473911697274508523994622)],
  [(208, 1, 48473911697274508523994622)],
  [(209, 1, 48473911697274508523994622), (235, 0, 48473911697274508523994622), (236, 0,
  48473911697274508523994622), (237, 0, 48473911697274508523994622), (238, 0,
  48473911697274508523994622), (239, 0, 48473911697274508523994622), (240, 0,
  48473911697274508523994622), (241, 0, 48473911697274508523994622)],
  [(207, 4, 48473911697274508523994622)],
  [(236, 2, 48473911697274508524125694), (237, 2, 48473911697274508524125694), (238, 2,
  48473911697274508524125694), (239, 2, 48473911697274508524125694), (240, 0,
  2882303761517117440), (241, 0, 2882303761517117440)],
  [(240, 2, 48473914579578270041243134), (241, 2, 48473914579578270041243134)],
  [(211, 4, 48473911697274508523994622)],
  [(214, 2, 9671406556917033397780480)],
  [(215, 4, 48473911697274508523994622)],
  [(219, 4, 48473911697274508523994622)],
  [(220, 4, 48473911697274508523994622)],
  [(221, 4, 48473911697274508523994622)],
  [(223, 4, 48473911697274508523994622), (226, 0, 576460752303423488), (227, 0,
  576460752303423488)],
  [(224, 1, 2882303761517117440)],
  [(225, 1, 2882303761517117440)],
  [(92, 0, 14507116752904577737555968), (93, 0, 14507116752904577737555968), (94, 0,
  14507116752904577737555968), (95, 0, 14507116752904577737555968), (96, 0,
  14507116752904577737555968), (233, 4, 48473911697274508523994622), (234, 4,
  48473911697274508523994622)],
  [(231, 2, 14507116752904577737555968)],
  [(243, 4, 48473911697274508523994622)],
  [(59, 4, 48473911697274508523994622), (97, 1, 1182897463726624997376)],
  [(60, 4, 48473911697274508523994622), (61, 4, 48473911697274508523994622)],
  [(63, 4, 48473911697274508523994622)],
  [(64, 4, 48473911697274508523994622)],
  [(65, 4, 48473911697274508523994622)],
  [(116, 4, 9750506249513041619975678)],
  [(147, 4, 48473911697274508523994622)]]

/-- The items of the states from 400: production, place in it, tokens that may follow. -/
def lalrItems16 : List (List (Nat × Nat × Nat)) := [
  [(151, 4, 48473911697274508523994622), (178, 1, 2882303761517117440)],
  [(176, 1, 2882303761517117440), (179, 0, 2882303761517117440), (180, 0, 2882303761517117440),
  (181, 0, 2882303761517117440), (182, 0, 2882303761517117440)],
  [(152, 4, 48473911697274508523994622)],
  [(154, 0, 2361183241434822606848), (154, 1, 2361183241434822606848), (155, 0,
  2361183241434822606848), (155, 1, 2361183241434822606848), (156, 0, 2361183241434822606848),
  (157, 0, 9675769067775277630750720), (158, 0, 9675769067775277630750720), (159, 0,
  9675769067775277630750720), (160, 0, 9675769067775277630750720), (161, 0,
  9675769067775277630750720), (162, 0, 9675769067775277630750720), (163, 0,
  9675769067775277630750720), (164, 0, 9675769067775277630750720), (165, 0,
  9675769067775277630750720), (166, 0, 9675769067775277630750720)],
  [(156, 1, 2361183241434822606848), (157, 0, 2361183241434822606848), (158, 0,
  2361183241434822606848), (159, 0, 2361183241434822606848), (160, 0, 2361183241434822606848),
  (161, 0, 2361183241434822606848), (162, 0, 2361183241434822606848), (163, 0,
  2361183241434822606848), (164, 0, 2361183241434822606848), (165, 0, 2361183241434822606848),
  (166, 0, 2361183241434822606848)],
  [(157, 1, 9675769067775277630750720)],
  [(158, 1, 9675769067775277630750720)],
  [(159, 1, 9675769067775277630750720)],
  [(160, 1, 9675769067775277630750720)],
  [(161, 1, 9675769067775277630750720)],
  [(162, 1, 9675769067775277630750720)],
  [(163, 1, 9675769067775277630750720)],
  [(164, 1, 9675769067775277630750720)],
  [(165, 1, 9675769067775277630750720)],
  [(166, 1, 9675769067775277630750720)],
  [(19, 1, 9750506249513041619975678), (21, 0, 9750506249513041619975678), (22, 0,
  9750506249513041619975678), (23, 0, 9788285181375998781685246), (24, 0,
  9788285181375998781685246), (25, 0, 9788285181375998781685246), (26, 0,
  9788285181375998781685246), (27, 0, 9788285181375998781685246), (28, 0,
  9788285181375998781685246), (29, 0, 9788285181375998781685246), (30, 0,
  9788285181375998781685246), (31, 0, 9788285181375998781685246), (32, 0,
  9788285181375998781685246), (33, 0, 9788285181375998781685246), (34, 0,
  9788285181375998781685246), (35, 0, 9788285181375998781685246), (36, 0,
  9788285181375998781685246), (37, 0, 9788285181375998781685246), (38, 0,
  9788285181375998781685246), (39, 0, 9788285181375998781685246), (40, 0,
  9788285181375998781685246), (41, 0, 9788285181375998781685246), (42, 0,
  9788285181375998781685246), (43, 0, 9788285181375998781685246), (44, 0,
  9788285181375998781685246), (45, 0, 9788285181375998781685246), (46, 0,
  9788285181375998781685246), (47, 0, 9788285181375998781685246), (48, 0,
  9788285181375998781685246), (49, 0, 9788285181375998781685246), (50, 0,
  9788285181375998781685246), (51, 0, 9788285181375998781685246), (52, 0,
  9788285181375998781685246), (53, 0, 9788285181375998781685246), (54, 0,
  9788285181375998781685246), (55, 0, 9788285181375998781685246), (56, 0,
  9788285181375998781685246), (57, 0, 9788285181375998781685246), (58, 0,
  9788285181375998781685246), (59, 0, 9788285181375998781685246), (60, 0,
  9788285181375998781685246), (61, 0, 9788285181375998781685246), (62, 0,
  9788285181375998781685246), (63, 0, 9788285181375998781685246), (64, 0,
  9788285181375998781685246), (65, 0, 9788285181375998781685246), (66, 0,
  9788285181375998781685246), (67, 0, 9788285181375998781685246), (68, 0,
  9788285181375998781685246), (69, 0, 9788285181375998781685246), (70, 0,
  14521355333486472297709568), (71, 0, 14521355333486472297709568), (72, 0,
  14521355333486472297709568), (73, 0, 14521355333486472297709568), (74, 0,
  9788285181375998781685246), (75, 0, 14521355333486472297709568), (76, 0,
  14521355333486472297709568), (77, 0, 14521355333486472297709568), (78, 0,
  14521355333486472297709568), (99, 0, 9788285181375998781685246), (100, 0,
  9788285181375998781685246), (101, 0, 9788285181375998781685246), (102, 0,
  9788285181375998781685246), (103, 0, 9788285181375998781685246), (104, 0,
  9788285181375998781685246), (105, 0, 9788285181375998781685246), (106, 0,
  9788285181375998781685246), (107, 0, 9788285181375998781685246), (108, 0,
  9788285181375998781685246), (109, 0, 9788285181375998781685246), (110, 0,
  9788285181375998781685246), (111, 0, 9788285181375998781685246), (114, 0,
  9788285181375998781685246), (115, 0, 9750506249513041619975678), (116, 0,
  9750506249513041619975678), (117, 0, 9788285181375998781685246), (118, 0,
  9788285181375998781685246), (119, 0, 9788285181375998781685246), (121, 0,
  9788285181375998781685246), (123, 0, 9788285181375998781685246), (124, 0,
  75558007984038931857816), (125, 0, 75558007984038931857816), (141, 0,
  9788285181375998781685246), (142, 0, 9788285181375998781685246), (143, 0,
  9788285181375998781685246), (144, 0, 9788285181375998781685246), (145, 0,
  9788285181375998781685246), (147, 0, 9788285181375998781685246), (148, 0,
  147573952589676412928), (149, 0, 147573952589676412928), (151, 0, 9788285181375998781685246),
  (152, 0, 9788285181375998781685246), (153, 0, 9788285181375998781685246), (153, 4,
  48473911697274508523994622), (196, 0, 9788285181375998781685246), (197, 0,
  9788285181375998781685246), (198, 0, 9788285181375998781685246), (199, 0,
  9788285181375998781685246), (200, 0, 9671572577613696783613952), (201, 0,
  9671572577613696783613952), (203, 0, 9788285181375998781685246), (205, 0,
  9788285181375998781685246), (206, 0, 9788285181375998781685246), (207, 0,
  9788285181375998781685246), (210, 0, 9788285181375998781685246), (211, 0,
  9788285181375998781685246), (215, 0, 9788285181375998781685246), (216, 0,
  9788285181375998781685246), (219, 0, 9788285181375998781685246), (220, 0,
  9788285181375998781685246), (221, 0, 9788285181375998781685246), (223, 0,
  9788285181375998781685246), (233, 0, 9788285181375998781685246), (234, 0,
  9788285181375998781685246), (242, 0, 9788285181375998781685246), (243, 0,
  9788285181375998781685246)],
  [(167, 0, 21591985995871068094464), (168, 0, 21591985995871068094464), (169, 0,
  21591985995871068094464), (170, 0, 21591985995871068094464), (171, 0, 21591985995871068094464),
  (172, 0, 21591985995871068094464), (173, 0, 21591985995871068094464), (174, 0,
  21591985995871068094464), (203, 4, 48473911697274508523994622)],
  [(169, 1, 19233108597445459181568), (170, 1, 19233108597445459181568), (171, 1,
  19233108597445459181568), (172, 1, 19233108597445459181568), (173, 1, 19233108597445459181568),
  (205, 4, 48473911697274508523994622)],
  [(169, 1, 21594868299632585211904), (169, 3, 21594868299632585211904), (170, 1,
  21594868299632585211904), (171, 1, 21594868299632585211904), (172, 1, 21594868299632585211904),
  (173, 1, 21594868299632585211904)],
  [(169, 1, 21594868299632585211904), (170, 1, 21594868299632585211904), (170, 3,
  21594868299632585211904), (171, 1, 21594868299632585211904), (172, 1, 21594868299632585211904),
  (173, 1, 21594868299632585211904)],
  [(169, 1, 21594868299632585211904), (170, 1, 21594868299632585211904), (171, 1,
  21594868299632585211904), (171, 3, 21594868299632585211904), (172, 1, 21594868299632585211904),
  (173, 1, 21594868299632585211904)],
  [(169, 1, 21594868299632585211904), (170, 1, 21594868299632585211904), (171, 1,
  21594868299632585211904), (172, 1, 21594868299632585211904), (172, 3, 21594868299632585211904),
  (173, 1, 21594868299632585211904)],
  [(169, 1, 21594868299632585211904), (170, 1, 21594868299632585211904), (171, 1,
  21594868299632585211904), (172, 1, 21594868299632585211904), (173, 1, 21594868299632585211904),
  (173, 3, 21594868299632585211904)],
  [(19, 0, 9748145354501982949080574), (20, 0, 9748145354501982949080574), (21, 0,
  9748145354501982949080574), (22, 0, 9748145354501982949080574), (23, 0,
  9785924286364940110790142), (24, 0, 9785924286364940110790142), (25, 0,
  9785924286364940110790142), (26, 0, 9785924286364940110790142), (27, 0,
  9785924286364940110790142), (28, 0, 9785924286364940110790142), (29, 0,
  9785924286364940110790142), (30, 0, 9785924286364940110790142), (31, 0,
  9785924286364940110790142), (32, 0, 9785924286364940110790142), (33, 0,
  9785924286364940110790142), (34, 0, 9785924286364940110790142), (35, 0,
  9785924286364940110790142), (36, 0, 9785924286364940110790142), (37, 0,
  9785924286364940110790142), (38, 0, 9785924286364940110790142), (39, 0,
  9785924286364940110790142), (40, 0, 9785924286364940110790142), (41, 0,
  9785924286364940110790142), (42, 0, 9785924286364940110790142), (43, 0,
  9785924286364940110790142), (44, 0, 9785924286364940110790142), (45, 0,
  9785924286364940110790142), (46, 0, 9785924286364940110790142), (47, 0,
  9785924286364940110790142), (48, 0, 9785924286364940110790142), (49, 0,
  9785924286364940110790142), (50, 0, 9785924286364940110790142), (51, 0,
  9785924286364940110790142), (52, 0, 9785924286364940110790142), (53, 0,
  9785924286364940110790142), (54, 0, 9785924286364940110790142), (55, 0,
  9785924286364940110790142), (56, 0, 9785924286364940110790142), (57, 0,
  9785924286364940110790142), (58, 0, 9785924286364940110790142), (59, 0,
  9785924286364940110790142), (60, 0, 9785924286364940110790142), (61, 0,
  9785924286364940110790142), (62, 0, 9785924286364940110790142), (63, 0,
  9785924286364940110790142), (64, 0, 9785924286364940110790142), (65, 0,
  9785924286364940110790142), (66, 0, 9785924286364940110790142), (67, 0,
  9785924286364940110790142), (68, 0, 9785924286364940110790142), (69, 0,
  9785924286364940110790142), (70, 0, 14521355333486472297709568), (71, 0,
  14521355333486472297709568), (72, 0, 14521355333486472297709568), (73, 0,
  14521355333486472297709568), (74, 0, 9785924286364940110790142), (75, 0,
  14521355333486472297709568), (76, 0, 14521355333486472297709568), (77, 0,
  14521355333486472297709568), (78, 0, 14521355333486472297709568), (99, 0,
  9785924286364940110790142), (100, 0, 9785924286364940110790142), (101, 0,
  9785924286364940110790142), (102, 0, 9785924286364940110790142), (103, 0,
  9785924286364940110790142), (104, 0, 9785924286364940110790142), (105, 0,
  9785924286364940110790142), (106, 0, 9785924286364940110790142), (107, 0,
  9785924286364940110790142), (108, 0, 9785924286364940110790142), (109, 0,
  9785924286364940110790142), (110, 0, 9785924286364940110790142), (111, 0,
  9785924286364940110790142), (114, 0, 9785924286364940110790142), (115, 0,
  9750506249513041619975678), (116, 0, 9750506249513041619975678), (117, 0,
  9785924286364940110790142), (118, 0, 9785924286364940110790142), (119, 0,
  9785924286364940110790142), (121, 0, 9785924286364940110790142), (123, 0,
  9785924286364940110790142), (124, 0, 75558007984038931857816), (125, 0,
  75558007984038931857816), (141, 0, 9785924286364940110790142), (142, 0,
  9785924286364940110790142), (143, 0, 9785924286364940110790142), (144, 0,
  9785924286364940110790142), (145, 0, 9785924286364940110790142), (147, 0,
  9785924286364940110790142), (148, 0, 147573952589676412928), (149, 0, 147573952589676412928),
  (151, 0, 9785924286364940110790142), (152, 0, 9785924286364940110790142), (153, 0,
  9785924286364940110790142), (196, 0, 9785924286364940110790142), (197, 0,
  9785924286364940110790142), (198, 0, 9785924286364940110790142), (198, 4,
  48473911697274508523994622), (199, 0, 9785924286364940110790142), (199, 4,
  48473911697274508523994622), (200, 0, 9671572577613696783613952), (201, 0,
  9671572577613696783613952), (203, 0, 9785924286364940110790142), (205, 0,
  9785924286364940110790142), (206, 0, 9785924286364940110790142), (207, 0,
  9785924286364940110790142), (210, 0, 9785924286364940110790142), (211, 0,
  9785924286364940110790142), (215, 0, 9785924286364940110790142), (216, 0,
  9785924286364940110790142), (219, 0, 9785924286364940110790142), (220, 0,
  9785924286364940110790142), (221, 0, 9785924286364940110790142), (223, 0,
  9785924286364940110790142), (233, 0, 9785924286364940110790142), (234, 0,
  9785924286364940110790142), (242, 0, 9785924286364940110790142), (243, 0,
  9785924286364940110790142)],
  [(174, 3, 21594868299632585211904)]]

/-- The items of the states from 425: production, place in it, tokens that may follow. -/
def lalrItems17 : List (List (Nat × Nat × Nat)) := [
  [(14, 5, 9748145066271606797368830)],
  [(264, 5, 38761184091394047914017792), (265, 5, 38761184091394047914017792)],
  [(254, 5, 9788285181375998781685246)],
  [(276, 5, 38761184091394047914017536)],
  [(278, 3, 38761184091394047914017536)],
  [(279, 2, 9746964708873323872780288)],
  [(100, 5, 48473911697274508523994622)],
  [(97, 3, 1182897463726624997376)],
  [(66, 5, 48473911697274508523994622)],
  [(69, 5, 48473911697274508523994622), (88, 0, 1180591620717411303424), (89, 0,
  1180591620717411303424), (90, 0, 1180591620717411303424), (91, 0, 1180591620717411303424), (94,
  0, 1180591620717411303424), (95, 0, 1180591620717411303424), (96, 0, 1180591620717411303424)],
  [(74, 5, 48473911697274508523994622)],
  [(101, 5, 48473911697274508523994622), (102, 5, 48473911697274508523994622)],
  [(103, 5, 48473911697274508523994622)],
  [(104, 5, 48473911697274508523994622)],
  [(105, 5, 48473911697274508523994622), (190, 0, 1180591620717411303424), (191, 0,
  1180591620717411303424), (192, 0, 1185203306735838691328), (193, 0, 1185203306735838691328),
  (194, 0, 1186356228240445538304), (195, 0, 1186356228240445538304)],
  [(106, 5, 48473911697274508523994622)],
  [(107, 5, 48473911697274508523994622)],
  [(188, 3, 14507117329365330040979456)],
  [(185, 3, 14507117329365330040979456)],
  [(79, 3, 14508297920986047452282880)],
  [(82, 2, 13298188915677315500867584)],
  [(114, 5, 48473911697274508523994622)],
  [(117, 5, 48473911697274508523994622)],
  [(118, 5, 48473911697274508523994622)],
  [(135, 4, 115698843664371295453592)]]

/-- The items of the states from 450: production, place in it, tokens that may follow. -/
def lalrItems18 : List (List (Nat × Nat × Nat)) := [
  [(137, 4, 115698843664371295453592), (139, 4, 115698843664371295453592)],
  [(121, 5, 48473911697274508523994622)],
  [(123, 5, 48473911697274508523994622), (126, 1, 75558152099227007713688), (128, 0,
  75558152099227007713688), (129, 0, 75558152099227007713688), (130, 0,
  113337083962184169423256), (131, 0, 113337083962184169423256), (132, 0,
  113337083962184169423256), (133, 0, 113337083962184169423256), (134, 0,
  113337083962184169423256), (135, 0, 113337083962184169423256), (137, 0,
  113337083962184169423256), (139, 0, 113337083962184169423256), (140, 0,
  113337083962184169423256), (148, 0, 147573952589676412928), (149, 0, 147573952589676412928)],
  [(209, 2, 48473911697274508523994622)],
  [(236, 3, 48473911697274508524125694), (237, 3, 48473911697274508524125694), (238, 3,
  48473911697274508524125694), (239, 3, 48473911697274508524125694)],
  [(240, 3, 48473914579578270041243134), (241, 3, 48473914579578270041243134)],
  [(214, 3, 9671406556917033397780480)],
  [(223, 5, 48473911697274508523994622)],
  [(227, 1, 576460752303423488), (228, 0, 576460752303423488), (229, 0, 576460752303423488),
  (230, 0, 576460752303423488)],
  [(224, 2, 2882303761517117440)],
  [(92, 1, 14507116752904577737555968), (94, 0, 14507116752904577737555968), (95, 0,
  14507116752904577737555968), (96, 0, 14507116752904577737555968), (233, 5,
  48473911697274508523994622), (234, 5, 48473911697274508523994622)],
  [(59, 5, 48473911697274508523994622)],
  [(60, 5, 48473911697274508523994622)],
  [(61, 5, 48473911697274508523994622), (97, 0, 1182897463726624997376), (98, 0,
  1182897463726624997376)],
  [(63, 5, 48473911697274508523994622)],
  [(64, 5, 48473911697274508523994622)],
  [(65, 5, 48473911697274508523994622)],
  [(147, 5, 48473911697274508523994622)],
  [(151, 5, 48473911697274508523994622)],
  [(177, 0, 9671409583335982990622720), (178, 2, 2882303761517117440)],
  [(176, 2, 2882303761517117440)],
  [(19, 0, 9750506249513041619975678), (20, 0, 9750506249513041619975678), (21, 0,
  9750506249513041619975678), (22, 0, 9750506249513041619975678), (23, 0,
  9788285181375998781685246), (24, 0, 9788285181375998781685246), (25, 0,
  9788285181375998781685246), (26, 0, 9788285181375998781685246), (27, 0,
  9788285181375998781685246), (28, 0, 9788285181375998781685246), (29, 0,
  9788285181375998781685246), (30, 0, 9788285181375998781685246), (31, 0,
  9788285181375998781685246), (32, 0, 9788285181375998781685246), (33, 0,
  9788285181375998781685246), (34, 0, 9788285181375998781685246), (35, 0,
  9788285181375998781685246), (36, 0, 9788285181375998781685246), (37, 0,
  9788285181375998781685246), (38, 0, 9788285181375998781685246), (39, 0,
  9788285181375998781685246), (40, 0, 9788285181375998781685246), (41, 0,
  9788285181375998781685246), (42, 0, 9788285181375998781685246), (43, 0,
  9788285181375998781685246), (44, 0, 9788285181375998781685246), (45, 0,
  9788285181375998781685246), (46, 0, 9788285181375998781685246), (47, 0,
  9788285181375998781685246), (48, 0, 9788285181375998781685246), (49, 0,
  9788285181375998781685246), (50, 0, 9788285181375998781685246), (51, 0,
  9788285181375998781685246), (52, 0, 9788285181375998781685246), (53, 0,
  9788285181375998781685246), (54, 0, 9788285181375998781685246), (55, 0,
  9788285181375998781685246), (56, 0, 9788285181375998781685246), (57, 0,
  9788285181375998781685246), (58, 0, 9788285181375998781685246), (59, 0,
  9788285181375998781685246), (60, 0, 9788285181375998781685246), (61, 0,
  9788285181375998781685246), (62, 0, 9788285181375998781685246), (63, 0,
  9788285181375998781685246), (64, 0, 9788285181375998781685246), (65, 0,
  9788285181375998781685246), (66, 0, 9788285181375998781685246), (67, 0,
  9788285181375998781685246), (68, 0, 9788285181375998781685246), (69, 0,
  9788285181375998781685246), (70, 0, 14521355333486472297709568), (71, 0,
  14521355333486472297709568), (72, 0, 14521355333486472297709568), (73, 0,
  14521355333486472297709568), (74, 0, 9788285181375998781685246), (75, 0,
  14521355333486472297709568), (76, 0, 14521355333486472297709568), (77, 0,
  14521355333486472297709568), (78, 0, 14521355333486472297709568), (99, 0,
  9788285181375998781685246), (100, 0, 9788285181375998781685246), (101, 0,
  9788285181375998781685246), (102, 0, 9788285181375998781685246), (103, 0,
  9788285181375998781685246), (104, 0, 9788285181375998781685246), (105, 0,
  9788285181375998781685246), (106, 0, 9788285181375998781685246), (107, 0,
  9788285181375998781685246), (108, 0, 9788285181375998781685246), (109, 0,
  9788285181375998781685246), (110, 0, 9788285181375998781685246), (111, 0,
  9788285181375998781685246), (114, 0, 9788285181375998781685246), (115, 0,
  9750506249513041619975678), (116, 0, 9750506249513041619975678), (117, 0,
  9788285181375998781685246), (118, 0, 9788285181375998781685246), (119, 0,
  9788285181375998781685246), (121, 0, 9788285181375998781685246), (123, 0,
  9788285181375998781685246), (124, 0, 75558007984038931857816), (125, 0,
  75558007984038931857816), (141, 0, 9788285181375998781685246), (142, 0,
  9788285181375998781685246), (143, 0, 9788285181375998781685246), (144, 0,
  9788285181375998781685246), (145, 0, 9788285181375998781685246), (147, 0,
  9788285181375998781685246), (148, 0, 147573952589676412928), (149, 0, 147573952589676412928),
  (151, 0, 9788285181375998781685246), (152, 0, 9788285181375998781685246), (153, 0,
  9788285181375998781685246), (180, 1, 2882303761517117440), (181, 1, 2882303761517117440), (196,
  0, 9788285181375998781685246), (197, 0, 9788285181375998781685246), (198, 0,
  9788285181375998781685246), (199, 0, 9788285181375998781685246), (200, 0,
  9671572577613696783613952), (201, 0, 9671572577613696783613952), (203, 0,
  9788285181375998781685246), (205, 0, 9788285181375998781685246), (206, 0,
  9788285181375998781685246), (207, 0, 9788285181375998781685246), (210, 0,
  9788285181375998781685246), (211, 0, 9788285181375998781685246), (215, 0,
  9788285181375998781685246), (216, 0, 9788285181375998781685246), (219, 0,
  9788285181375998781685246), (220, 0, 9788285181375998781685246), (221, 0,
  9788285181375998781685246), (223, 0, 9788285181375998781685246), (233, 0,
  9788285181375998781685246), (234, 0, 9788285181375998781685246), (242, 0,
  9788285181375998781685246), (243, 0, 9788285181375998781685246)],
  [(182, 1, 2882303761517117440)],
  [(152, 5, 48473911697274508523994622)],
  [(155, 2, 2361183241434822606848)]]

/-- The items of the states from 475: production, place in it, tokens that may follow. -/
def lalrItems19 : List (List (Nat × Nat × Nat)) := [
  [(156, 2, 2361183241434822606848)],
  [(153, 5, 48473911697274508523994622)],
  [(169, 1, 21591985995871068094464), (170, 1, 21591985995871068094464), (171, 1,
  21591985995871068094464), (172, 1, 21591985995871068094464), (173, 1, 21591985995871068094464),
  (203, 5, 48473911697274508523994622)],
  [(175, 0, 9671409583335982990622720), (176, 0, 2882303761517117440), (178, 0,
  2882303761517117440), (205, 5, 48473911697274508523994622)],
  [(19, 1, 9748145354501982949080574), (21, 0, 9748145354501982949080574), (22, 0,
  9748145354501982949080574), (23, 0, 9785924286364940110790142), (24, 0,
  9785924286364940110790142), (25, 0, 9785924286364940110790142), (26, 0,
  9785924286364940110790142), (27, 0, 9785924286364940110790142), (28, 0,
  9785924286364940110790142), (29, 0, 9785924286364940110790142), (30, 0,
  9785924286364940110790142), (31, 0, 9785924286364940110790142), (32, 0,
  9785924286364940110790142), (33, 0, 9785924286364940110790142), (34, 0,
  9785924286364940110790142), (35, 0, 9785924286364940110790142), (36, 0,
  9785924286364940110790142), (37, 0, 9785924286364940110790142), (38, 0,
  9785924286364940110790142), (39, 0, 9785924286364940110790142), (40, 0,
  9785924286364940110790142), (41, 0, 9785924286364940110790142), (42, 0,
  9785924286364940110790142), (43, 0, 9785924286364940110790142), (44, 0,
  9785924286364940110790142), (45, 0, 9785924286364940110790142), (46, 0,
  9785924286364940110790142), (47, 0, 9785924286364940110790142), (48, 0,
  9785924286364940110790142), (49, 0, 9785924286364940110790142), (50, 0,
  9785924286364940110790142), (51, 0, 9785924286364940110790142), (52, 0,
  9785924286364940110790142), (53, 0, 9785924286364940110790142), (54, 0,
  9785924286364940110790142), (55, 0, 9785924286364940110790142), (56, 0,
  9785924286364940110790142), (57, 0, 9785924286364940110790142), (58, 0,
  9785924286364940110790142), (59, 0, 9785924286364940110790142), (60, 0,
  9785924286364940110790142), (61, 0, 9785924286364940110790142), (62, 0,
  9785924286364940110790142), (63, 0, 9785924286364940110790142), (64, 0,
  9785924286364940110790142), (65, 0, 9785924286364940110790142), (66, 0,
  9785924286364940110790142), (67, 0, 9785924286364940110790142), (68, 0,
  9785924286364940110790142), (69, 0, 9785924286364940110790142), (70, 0,
  14521355333486472297709568), (71, 0, 14521355333486472297709568), (72, 0,
  14521355333486472297709568), (73, 0, 14521355333486472297709568), (74, 0,
  9785924286364940110790142), (75, 0, 14521355333486472297709568), (76, 0,
  14521355333486472297709568), (77, 0, 14521355333486472297709568), (78, 0,
  14521355333486472297709568), (99, 0, 9785924286364940110790142), (100, 0,
  9785924286364940110790142), (101, 0, 9785924286364940110790142), (102, 0,
  9785924286364940110790142), (103, 0, 9785924286364940110790142), (104, 0,
  9785924286364940110790142), (105, 0, 9785924286364940110790142), (106, 0,
  9785924286364940110790142), (107, 0, 9785924286364940110790142), (108, 0,
  9785924286364940110790142), (109, 0, 9785924286364940110790142), (110, 0,
  9785924286364940110790142), (111, 0, 9785924286364940110790142), (114, 0,
  9785924286364940110790142), (115, 0, 9750506249513041619975678), (116, 0,
  9750506249513041619975678), (117, 0, 9785924286364940110790142), (118, 0,
  9785924286364940110790142), (119, 0, 9785924286364940110790142), (121, 0,
  9785924286364940110790142), (123, 0, 9785924286364940110790142), (124, 0,
  75558007984038931857816), (125, 0, 75558007984038931857816), (141, 0,
  9785924286364940110790142), (142, 0, 9785924286364940110790142), (143, 0,
  9785924286364940110790142), (144, 0, 9785924286364940110790142), (145, 0,
  9785924286364940110790142), (147, 0, 9785924286364940110790142), (148, 0,
  147573952589676412928), (149, 0, 147573952589676412928), (151, 0, 9785924286364940110790142),
  (152, 0, 9785924286364940110790142), (153, 0, 9785924286364940110790142), (196, 0,
  9785924286364940110790142), (197, 0, 9785924286364940110790142), (198, 0,
  9785924286364940110790142), (198, 5, 48473911697274508523994622), (199, 0,
  9785924286364940110790142), (199, 5, 48473911697274508523994622), (200, 0,
  9671572577613696783613952), (201, 0, 9671572577613696783613952), (203, 0,
  9785924286364940110790142), (205, 0, 9785924286364940110790142), (206, 0,
  9785924286364940110790142), (207, 0, 9785924286364940110790142), (210, 0,
  9785924286364940110790142), (211, 0, 9785924286364940110790142), (215, 0,
  9785924286364940110790142), (216, 0, 9785924286364940110790142), (219, 0,
  9785924286364940110790142), (220, 0, 9785924286364940110790142), (221, 0,
  9785924286364940110790142), (223, 0, 9785924286364940110790142), (233, 0,
  9785924286364940110790142), (234, 0, 9785924286364940110790142), (242, 0,
  9785924286364940110790142), (243, 0, 9785924286364940110790142)],
  [(14, 6, 9748145066271606797368830)],
  [(264, 6, 38761184091394047914017792), (265, 6, 38761184091394047914017792)],
  [(254, 6, 9788285181375998781685246)],
  [(69, 6, 48473911697274508523994622)],
  [(74, 6, 48473911697274508523994622), (79, 0, 1180591620717411303424), (80, 0,
  1180591620717411303424), (81, 0, 1180591620717411303424), (84, 0, 1180591620717411303424), (85,
  0, 1180591620717411303424), (86, 0, 1180591620717411303424), (87, 0, 1180591620717411303424)],
  [(101, 6, 48473911697274508523994622), (102, 6, 48473911697274508523994622)],
  [(103, 6, 48473911697274508523994622)],
  [(104, 6, 48473911697274508523994622)],
  [(105, 6, 48473911697274508523994622)],
  [(190, 1, 48473914579578270041243134), (191, 1, 48473914579578270041243134)],
  [(192, 1, 48473919191264288468631038), (193, 1, 48473919191264288468631038)],
  [(194, 1, 48473920344185793075478014), (195, 1, 48473920344185793075478014)],
  [(107, 6, 48473911697274508523994622)],
  [(113, 0, 9748145066271606797368830), (114, 6, 48473911697274508523994622)],
  [(118, 6, 48473911697274508523994622)],
  [(137, 5, 115698843664371295453592), (139, 5, 115698843664371295453592)],
  [(123, 6, 48473911697274508523994622)],
  [(236, 4, 48473911697274508524125694)],
  [(190, 0, 2882303761517117440), (191, 0, 2882303761517117440), (192, 0, 7493989779944505344),
  (193, 0, 7493989779944505344), (194, 0, 8646911284551352320), (195, 0, 8646911284551352320),
  (237, 4, 48473911697274508524125694), (238, 4, 48473911697274508524125694), (239, 4,
  48473911697274508524125694)],
  [(240, 4, 48473914579578270041243134), (241, 4, 48473914579578270041243134)]]

/-- The items of the states from 500: production, place in it, tokens that may follow. -/
def lalrItems20 : List (List (Nat × Nat × Nat)) := [
  [(223, 6, 48473911697274508523994622)],
  [(227, 2, 576460752303423488)],
  [(154, 0, 2361183241434822606848), (155, 0, 2361183241434822606848), (156, 0,
  2361183241434822606848), (157, 0, 9675769067775277630750720), (158, 0,
  9675769067775277630750720), (159, 0, 9675769067775277630750720), (160, 0,
  9675769067775277630750720), (161, 0, 9675769067775277630750720), (162, 0,
  9675769067775277630750720), (163, 0, 9675769067775277630750720), (164, 0,
  9675769067775277630750720), (165, 0, 9675769067775277630750720), (166, 0,
  9675769067775277630750720), (229, 1, 576460752303423488)],
  [(230, 1, 576460752303423488)],
  [(224, 3, 2882303761517117440)],
  [(190, 0, 2305843009213693952), (191, 0, 2305843009213693952), (192, 0, 6917529027641081856),
  (193, 0, 6917529027641081856), (194, 0, 8070450532247928832), (195, 0, 8070450532247928832),
  (233, 6, 48473911697274508523994622), (234, 6, 48473911697274508523994622)],
  [(61, 6, 48473911697274508523994622), (97, 1, 1182897463726624997376)],
  [(63, 6, 48473911697274508523994622)],
  [(64, 6, 48473911697274508523994622)],
  [(65, 6, 48473911697274508523994622)],
  [(146, 0, 9671409583335982990622720), (147, 6, 48473911697274508523994622)],
  [(178, 3, 2882303761517117440), (179, 0, 2882303761517117440), (180, 0, 2882303761517117440),
  (181, 0, 2882303761517117440), (182, 0, 2882303761517117440)],
  [(180, 2, 2882303761517117440)],
  [(19, 1, 9750506249513041619975678), (21, 0, 9750506249513041619975678), (22, 0,
  9750506249513041619975678), (23, 0, 9788285181375998781685246), (24, 0,
  9788285181375998781685246), (25, 0, 9788285181375998781685246), (26, 0,
  9788285181375998781685246), (27, 0, 9788285181375998781685246), (28, 0,
  9788285181375998781685246), (29, 0, 9788285181375998781685246), (30, 0,
  9788285181375998781685246), (31, 0, 9788285181375998781685246), (32, 0,
  9788285181375998781685246), (33, 0, 9788285181375998781685246), (34, 0,
  9788285181375998781685246), (35, 0, 9788285181375998781685246), (36, 0,
  9788285181375998781685246), (37, 0, 9788285181375998781685246), (38, 0,
  9788285181375998781685246), (39, 0, 9788285181375998781685246), (40, 0,
  9788285181375998781685246), (41, 0, 9788285181375998781685246), (42, 0,
  9788285181375998781685246), (43, 0, 9788285181375998781685246), (44, 0,
  9788285181375998781685246), (45, 0, 9788285181375998781685246), (46, 0,
  9788285181375998781685246), (47, 0, 9788285181375998781685246), (48, 0,
  9788285181375998781685246), (49, 0, 9788285181375998781685246), (50, 0,
  9788285181375998781685246), (51, 0, 9788285181375998781685246), (52, 0,
  9788285181375998781685246), (53, 0, 9788285181375998781685246), (54, 0,
  9788285181375998781685246), (55, 0, 9788285181375998781685246), (56, 0,
  9788285181375998781685246), (57, 0, 9788285181375998781685246), (58, 0,
  9788285181375998781685246), (59, 0, 9788285181375998781685246), (60, 0,
  9788285181375998781685246), (61, 0, 9788285181375998781685246), (62, 0,
  9788285181375998781685246), (63, 0, 9788285181375998781685246), (64, 0,
  9788285181375998781685246), (65, 0, 9788285181375998781685246), (66, 0,
  9788285181375998781685246), (67, 0, 9788285181375998781685246), (68, 0,
  9788285181375998781685246), (69, 0, 9788285181375998781685246), (70, 0,
  14521355333486472297709568), (71, 0, 14521355333486472297709568), (72, 0,
  14521355333486472297709568), (73, 0, 14521355333486472297709568), (74, 0,
  9788285181375998781685246), (75, 0, 14521355333486472297709568), (76, 0,
  14521355333486472297709568), (77, 0, 14521355333486472297709568), (78, 0,
  14521355333486472297709568), (99, 0, 9788285181375998781685246), (100, 0,
  9788285181375998781685246), (101, 0, 9788285181375998781685246), (102, 0,
  9788285181375998781685246), (103, 0, 9788285181375998781685246), (104, 0,
  9788285181375998781685246), (105, 0, 9788285181375998781685246), (106, 0,
  9788285181375998781685246), (107, 0, 9788285181375998781685246), (108, 0,
  9788285181375998781685246), (109, 0, 9788285181375998781685246), (110, 0,
  9788285181375998781685246), (111, 0, 9788285181375998781685246), (114, 0,
  9788285181375998781685246), (115, 0, 9750506249513041619975678), (116, 0,
  9750506249513041619975678), (117, 0, 9788285181375998781685246), (118, 0,
  9788285181375998781685246), (119, 0, 9788285181375998781685246), (121, 0,
  9788285181375998781685246), (123, 0, 9788285181375998781685246), (124, 0,
  75558007984038931857816), (125, 0, 75558007984038931857816), (141, 0,
  9788285181375998781685246), (142, 0, 9788285181375998781685246), (143, 0,
  9788285181375998781685246), (144, 0, 9788285181375998781685246), (145, 0,
  9788285181375998781685246), (147, 0, 9788285181375998781685246), (148, 0,
  147573952589676412928), (149, 0, 147573952589676412928), (151, 0, 9788285181375998781685246),
  (152, 0, 9788285181375998781685246), (153, 0, 9788285181375998781685246), (181, 2,
  2882303761517117440), (196, 0, 9788285181375998781685246), (197, 0, 9788285181375998781685246),
  (198, 0, 9788285181375998781685246), (199, 0, 9788285181375998781685246), (200, 0,
  9671572577613696783613952), (201, 0, 9671572577613696783613952), (203, 0,
  9788285181375998781685246), (205, 0, 9788285181375998781685246), (206, 0,
  9788285181375998781685246), (207, 0, 9788285181375998781685246), (210, 0,
  9788285181375998781685246), (211, 0, 9788285181375998781685246), (215, 0,
  9788285181375998781685246), (216, 0, 9788285181375998781685246), (219, 0,
  9788285181375998781685246), (220, 0, 9788285181375998781685246), (221, 0,
  9788285181375998781685246), (223, 0, 9788285181375998781685246), (233, 0,
  9788285181375998781685246), (234, 0, 9788285181375998781685246), (242, 0,
  9788285181375998781685246), (243, 0, 9788285181375998781685246)],
  [(152, 6, 48473911697274508523994622)],
  [(156, 3, 2361183241434822606848)],
  [(153, 6, 48473911697274508523994622)],
  [(203, 6, 48473911697274508523994622)],
  [(178, 1, 2882303761517117440), (205, 6, 48473911697274508523994622)],
  [(198, 6, 48473911697274508523994622), (199, 6, 48473911697274508523994622)],
  [(88, 0, 2361183241984578420736), (89, 0, 2361183241984578420736), (90, 0,
  2361183241984578420736), (91, 0, 2361183241984578420736), (94, 0, 2361183241984578420736), (95,
  0, 2361183241984578420736), (96, 0, 2361183241984578420736), (264, 7,
  38761184091394047914017792), (265, 7, 38761184091394047914017792)],
  [(254, 7, 9788285181375998781685246)],
  [(69, 7, 48473911697274508523994622)],
  [(74, 7, 48473911697274508523994622)],
  [(101, 7, 48473911697274508523994622)]]

/-- The items of the states from 525: production, place in it, tokens that may follow. -/
def lalrItems21 : List (List (Nat × Nat × Nat)) := [
  [(102, 7, 48473911697274508523994622)],
  [(103, 7, 48473911697274508523994622)],
  [(104, 7, 48473911697274508523994622)],
  [(105, 7, 48473911697274508523994622)],
  [(190, 2, 48473914579578270041243134), (192, 0, 48473914579578270041243134), (193, 0,
  48473914579578270041243134), (194, 0, 48473915732499774648090110), (195, 0,
  48473915732499774648090110)],
  [(193, 2, 48473919191264288468631038), (194, 0, 48473919191264288468631038), (195, 0,
  48473919191264288468631038)],
  [(195, 2, 48473920344185793075478014)],
  [(107, 7, 48473911697274508523994622)],
  [(19, 0, 9750506249513041619975678), (20, 0, 9750506249513041619975678), (21, 0,
  9750506249513041619975678), (22, 0, 9750506249513041619975678), (23, 0,
  9788285181375998781685246), (24, 0, 9788285181375998781685246), (25, 0,
  9788285181375998781685246), (26, 0, 9788285181375998781685246), (27, 0,
  9788285181375998781685246), (28, 0, 9788285181375998781685246), (29, 0,
  9788285181375998781685246), (30, 0, 9788285181375998781685246), (31, 0,
  9788285181375998781685246), (32, 0, 9788285181375998781685246), (33, 0,
  9788285181375998781685246), (34, 0, 9788285181375998781685246), (35, 0,
  9788285181375998781685246), (36, 0, 9788285181375998781685246), (37, 0,
  9788285181375998781685246), (38, 0, 9788285181375998781685246), (39, 0,
  9788285181375998781685246), (40, 0, 9788285181375998781685246), (41, 0,
  9788285181375998781685246), (42, 0, 9788285181375998781685246), (43, 0,
  9788285181375998781685246), (44, 0, 9788285181375998781685246), (45, 0,
  9788285181375998781685246), (46, 0, 9788285181375998781685246), (47, 0,
  9788285181375998781685246), (48, 0, 9788285181375998781685246), (49, 0,
  9788285181375998781685246), (50, 0, 9788285181375998781685246), (51, 0,
  9788285181375998781685246), (52, 0, 9788285181375998781685246), (53, 0,
  9788285181375998781685246), (54, 0, 9788285181375998781685246), (55, 0,
  9788285181375998781685246), (56, 0, 9788285181375998781685246), (57, 0,
  9788285181375998781685246), (58, 0, 9788285181375998781685246), (59, 0,
  9788285181375998781685246), (60, 0, 9788285181375998781685246), (61, 0,
  9788285181375998781685246), (62, 0, 9788285181375998781685246), (63, 0,
  9788285181375998781685246), (64, 0, 9788285181375998781685246), (65, 0,
  9788285181375998781685246), (66, 0, 9788285181375998781685246), (67, 0,
  9788285181375998781685246), (68, 0, 9788285181375998781685246), (69, 0,
  9788285181375998781685246), (70, 0, 14521355333486472297709568), (71, 0,
  14521355333486472297709568), (72, 0, 14521355333486472297709568), (73, 0,
  14521355333486472297709568), (74, 0, 9788285181375998781685246), (75, 0,
  14521355333486472297709568), (76, 0, 14521355333486472297709568), (77, 0,
  14521355333486472297709568), (78, 0, 14521355333486472297709568), (99, 0,
  9788285181375998781685246), (100, 0, 9788285181375998781685246), (101, 0,
  9788285181375998781685246), (102, 0, 9788285181375998781685246), (103, 0,
  9788285181375998781685246), (104, 0, 9788285181375998781685246), (105, 0,
  9788285181375998781685246), (106, 0, 9788285181375998781685246), (107, 0,
  9788285181375998781685246), (108, 0, 9788285181375998781685246), (109, 0,
  9788285181375998781685246), (110, 0, 9788285181375998781685246), (111, 0,
  9788285181375998781685246), (114, 0, 9788285181375998781685246), (114, 7,
  48473911697274508523994622), (115, 0, 9750506249513041619975678), (116, 0,
  9750506249513041619975678), (117, 0, 9788285181375998781685246), (118, 0,
  9788285181375998781685246), (119, 0, 9788285181375998781685246), (121, 0,
  9788285181375998781685246), (123, 0, 9788285181375998781685246), (124, 0,
  75558007984038931857816), (125, 0, 75558007984038931857816), (141, 0,
  9788285181375998781685246), (142, 0, 9788285181375998781685246), (143, 0,
  9788285181375998781685246), (144, 0, 9788285181375998781685246), (145, 0,
  9788285181375998781685246), (147, 0, 9788285181375998781685246), (148, 0,
  147573952589676412928), (149, 0, 147573952589676412928), (151, 0, 9788285181375998781685246),
  (152, 0, 9788285181375998781685246), (153, 0, 9788285181375998781685246), (196, 0,
  9788285181375998781685246), (197, 0, 9788285181375998781685246), (198, 0,
  9788285181375998781685246), (199, 0, 9788285181375998781685246), (200, 0,
  9671572577613696783613952), (201, 0, 9671572577613696783613952), (203, 0,
  9788285181375998781685246), (205, 0, 9788285181375998781685246), (206, 0,
  9788285181375998781685246), (207, 0, 9788285181375998781685246), (210, 0,
  9788285181375998781685246), (211, 0, 9788285181375998781685246), (215, 0,
  9788285181375998781685246), (216, 0, 9788285181375998781685246), (219, 0,
  9788285181375998781685246), (220, 0, 9788285181375998781685246), (221, 0,
  9788285181375998781685246), (223, 0, 9788285181375998781685246), (233, 0,
  9788285181375998781685246), (234, 0, 9788285181375998781685246), (242, 0,
  9788285181375998781685246), (243, 0, 9788285181375998781685246)],
  [(137, 6, 115698843664371295453592), (138, 0, 75557863868850856001944), (139, 6,
  115698843664371295453592)],
  [(237, 5, 48473911697274508524125694), (238, 5, 48473911697274508524125694), (239, 5,
  48473911697274508524125694)],
  [(240, 5, 48473914579578270041243134), (241, 5, 48473914579578270041243134)],
  [(229, 2, 576460752303423488)],
  [(233, 7, 48473911697274508523994622), (234, 7, 48473911697274508523994622)],
  [(61, 7, 48473911697274508523994622)],
  [(64, 7, 48473911697274508523994622)],
  [(147, 7, 48473911697274508523994622), (175, 0, 9671409583335982990622720), (176, 0,
  2882303761517117440), (178, 0, 2882303761517117440)],
  [(178, 4, 2882303761517117440)],
  [(181, 3, 2882303761517117440)],
  [(175, 0, 9671409583335982990622720), (176, 0, 2882303761517117440), (178, 0,
  2882303761517117440), (203, 7, 48473911697274508523994622)],
  [(205, 7, 48473911697274508523994622)],
  [(199, 7, 48473911697274508523994622)],
  [(152, 0, 2361183241434822606848), (264, 8, 38761184091394047914017792), (265, 8,
  38761184091394047914017792)],
  [(74, 8, 48473911697274508523994622)],
  [(102, 8, 48473911697274508523994622)]]

/-- The items of the states from 550: production, place in it, tokens that may follow. -/
def lalrItems22 : List (List (Nat × Nat × Nat)) := [
  [(190, 3, 48473914579578270041243134)],
  [(193, 3, 48473919191264288468631038)],
  [(195, 3, 48473920344185793075478014)],
  [(19, 1, 9750506249513041619975678), (21, 0, 9750506249513041619975678), (22, 0,
  9750506249513041619975678), (23, 0, 9788285181375998781685246), (24, 0,
  9788285181375998781685246), (25, 0, 9788285181375998781685246), (26, 0,
  9788285181375998781685246), (27, 0, 9788285181375998781685246), (28, 0,
  9788285181375998781685246), (29, 0, 9788285181375998781685246), (30, 0,
  9788285181375998781685246), (31, 0, 9788285181375998781685246), (32, 0,
  9788285181375998781685246), (33, 0, 9788285181375998781685246), (34, 0,
  9788285181375998781685246), (35, 0, 9788285181375998781685246), (36, 0,
  9788285181375998781685246), (37, 0, 9788285181375998781685246), (38, 0,
  9788285181375998781685246), (39, 0, 9788285181375998781685246), (40, 0,
  9788285181375998781685246), (41, 0, 9788285181375998781685246), (42, 0,
  9788285181375998781685246), (43, 0, 9788285181375998781685246), (44, 0,
  9788285181375998781685246), (45, 0, 9788285181375998781685246), (46, 0,
  9788285181375998781685246), (47, 0, 9788285181375998781685246), (48, 0,
  9788285181375998781685246), (49, 0, 9788285181375998781685246), (50, 0,
  9788285181375998781685246), (51, 0, 9788285181375998781685246), (52, 0,
  9788285181375998781685246), (53, 0, 9788285181375998781685246), (54, 0,
  9788285181375998781685246), (55, 0, 9788285181375998781685246), (56, 0,
  9788285181375998781685246), (57, 0, 9788285181375998781685246), (58, 0,
  9788285181375998781685246), (59, 0, 9788285181375998781685246), (60, 0,
  9788285181375998781685246), (61, 0, 9788285181375998781685246), (62, 0,
  9788285181375998781685246), (63, 0, 9788285181375998781685246), (64, 0,
  9788285181375998781685246), (65, 0, 9788285181375998781685246), (66, 0,
  9788285181375998781685246), (67, 0, 9788285181375998781685246), (68, 0,
  9788285181375998781685246), (69, 0, 9788285181375998781685246), (70, 0,
  14521355333486472297709568), (71, 0, 14521355333486472297709568), (72, 0,
  14521355333486472297709568), (73, 0, 14521355333486472297709568), (74, 0,
  9788285181375998781685246), (75, 0, 14521355333486472297709568), (76, 0,
  14521355333486472297709568), (77, 0, 14521355333486472297709568), (78, 0,
  14521355333486472297709568), (99, 0, 9788285181375998781685246), (100, 0,
  9788285181375998781685246), (101, 0, 9788285181375998781685246), (102, 0,
  9788285181375998781685246), (103, 0, 9788285181375998781685246), (104, 0,
  9788285181375998781685246), (105, 0, 9788285181375998781685246), (106, 0,
  9788285181375998781685246), (107, 0, 9788285181375998781685246), (108, 0,
  9788285181375998781685246), (109, 0, 9788285181375998781685246), (110, 0,
  9788285181375998781685246), (111, 0, 9788285181375998781685246), (114, 0,
  9788285181375998781685246), (114, 8, 48473911697274508523994622), (115, 0,
  9750506249513041619975678), (116, 0, 9750506249513041619975678), (117, 0,
  9788285181375998781685246), (118, 0, 9788285181375998781685246), (119, 0,
  9788285181375998781685246), (121, 0, 9788285181375998781685246), (123, 0,
  9788285181375998781685246), (124, 0, 75558007984038931857816), (125, 0,
  75558007984038931857816), (141, 0, 9788285181375998781685246), (142, 0,
  9788285181375998781685246), (143, 0, 9788285181375998781685246), (144, 0,
  9788285181375998781685246), (145, 0, 9788285181375998781685246), (147, 0,
  9788285181375998781685246), (148, 0, 147573952589676412928), (149, 0, 147573952589676412928),
  (151, 0, 9788285181375998781685246), (152, 0, 9788285181375998781685246), (153, 0,
  9788285181375998781685246), (196, 0, 9788285181375998781685246), (197, 0,
  9788285181375998781685246), (198, 0, 9788285181375998781685246), (199, 0,
  9788285181375998781685246), (200, 0, 9671572577613696783613952), (201, 0,
  9671572577613696783613952), (203, 0, 9788285181375998781685246), (205, 0,
  9788285181375998781685246), (206, 0, 9788285181375998781685246), (207, 0,
  9788285181375998781685246), (210, 0, 9788285181375998781685246), (211, 0,
  9788285181375998781685246), (215, 0, 9788285181375998781685246), (216, 0,
  9788285181375998781685246), (219, 0, 9788285181375998781685246), (220, 0,
  9788285181375998781685246), (221, 0, 9788285181375998781685246), (223, 0,
  9788285181375998781685246), (233, 0, 9788285181375998781685246), (234, 0,
  9788285181375998781685246), (242, 0, 9788285181375998781685246), (243, 0,
  9788285181375998781685246)],
  [(136, 0, 75557863868850856001944), (137, 7, 115698843664371295453592)],
  [(126, 0, 75558440329603159425432), (127, 0, 75558440329603159425432), (128, 0,
  75558440329603159425432), (129, 0, 75558440329603159425432), (130, 0,
  113337372192560321135000), (131, 0, 113337372192560321135000), (132, 0,
  113337372192560321135000), (133, 0, 113337372192560321135000), (134, 0,
  113337372192560321135000), (135, 0, 113337372192560321135000), (137, 0,
  113337372192560321135000), (139, 0, 113337372192560321135000), (139, 7,
  115698843664371295453592), (140, 0, 113337372192560321135000), (148, 0, 147573952589676412928),
  (149, 0, 147573952589676412928)],
  [(237, 6, 48473911697274508524125694)],
  [(190, 0, 576460752303423488), (191, 0, 576460752303423488), (192, 0, 5188146770730811392),
  (193, 0, 5188146770730811392), (194, 0, 6341068275337658368), (195, 0, 6341068275337658368),
  (238, 6, 48473911697274508524125694), (239, 6, 48473911697274508524125694)],
  [(190, 0, 48473914579578270041243134), (191, 0, 48473914579578270041243134), (192, 0,
  48473919191264288468631038), (193, 0, 48473919191264288468631038), (194, 0,
  48473920344185793075478014), (195, 0, 48473920344185793075478014), (241, 6,
  48473914579578270041243134)],
  [(229, 3, 576460752303423488)],
  [(190, 0, 2882303761517117440), (191, 0, 2882303761517117440), (192, 0, 7493989779944505344),
  (193, 0, 7493989779944505344), (194, 0, 8646911284551352320), (195, 0, 8646911284551352320),
  (233, 8, 48473911697274508523994622), (234, 8, 48473911697274508523994622)],
  [(64, 8, 48473911697274508523994622)],
  [(147, 8, 48473911697274508523994622), (178, 1, 2882303761517117440)],
  [(178, 1, 2882303761517117440), (203, 8, 48473911697274508523994622)],
  [(19, 0, 9748145354501982949080574), (20, 0, 9748145354501982949080574), (21, 0,
  9748145354501982949080574), (22, 0, 9748145354501982949080574), (23, 0,
  9785924286364940110790142), (24, 0, 9785924286364940110790142), (25, 0,
  9785924286364940110790142), (26, 0, 9785924286364940110790142), (27, 0,
  9785924286364940110790142), (28, 0, 9785924286364940110790142), (29, 0,
  9785924286364940110790142), (30, 0, 9785924286364940110790142), (31, 0,
  9785924286364940110790142), (32, 0, 9785924286364940110790142), (33, 0,
  9785924286364940110790142), (34, 0, 9785924286364940110790142), (35, 0,
  9785924286364940110790142), (36, 0, 9785924286364940110790142), (37, 0,
  9785924286364940110790142), (38, 0, 9785924286364940110790142), (39, 0,
  9785924286364940110790142), (40, 0, 9785924286364940110790142), (41, 0,
  9785924286364940110790142), (42, 0, 9785924286364940110790142), (43, 0,
  9785924286364940110790142), (44, 0, 9785924286364940110790142), (45, 0,
  9785924286364940110790142), (46, 0, 9785924286364940110790142), (47, 0,
  9785924286364940110790142), (48, 0, 9785924286364940110790142), (49, 0,
  9785924286364940110790142), (50, 0, 9785924286364940110790142), (51, 0,
  9785924286364940110790142), (52, 0, 9785924286364940110790142), (53, 0,
  9785924286364940110790142), (54, 0, 9785924286364940110790142), (55, 0,
  9785924286364940110790142), (56, 0, 9785924286364940110790142), (57, 0,
  9785924286364940110790142), (58, 0, 9785924286364940110790142), (59, 0,
  9785924286364940110790142), (60, 0, 9785924286364940110790142), (61, 0,
  9785924286364940110790142), (62, 0, 9785924286364940110790142), (63, 0,
  9785924286364940110790142), (64, 0, 9785924286364940110790142), (65, 0,
  9785924286364940110790142), (66, 0, 9785924286364940110790142), (67, 0,
  9785924286364940110790142), (68, 0, 9785924286364940110790142), (69, 0,
  9785924286364940110790142), (70, 0, 14521355333486472297709568), (71, 0,
  14521355333486472297709568), (72, 0, 14521355333486472297709568), (73, 0,
  14521355333486472297709568), (74, 0, 9785924286364940110790142), (75, 0,
  14521355333486472297709568), (76, 0, 14521355333486472297709568), (77, 0,
  14521355333486472297709568), (78, 0, 14521355333486472297709568), (99, 0,
  9785924286364940110790142), (100, 0, 9785924286364940110790142), (101, 0,
  9785924286364940110790142), (102, 0, 9785924286364940110790142), (103, 0,
  9785924286364940110790142), (104, 0, 9785924286364940110790142), (105, 0,
  9785924286364940110790142), (106, 0, 9785924286364940110790142), (107, 0,
  9785924286364940110790142), (108, 0, 9785924286364940110790142), (109, 0,
  9785924286364940110790142), (110, 0, 9785924286364940110790142), (111, 0,
  9785924286364940110790142), (114, 0, 9785924286364940110790142), (115, 0,
  9750506249513041619975678), (116, 0, 9750506249513041619975678), (117, 0,
  9785924286364940110790142), (118, 0, 9785924286364940110790142), (119, 0,
  9785924286364940110790142), (121, 0, 9785924286364940110790142), (123, 0,
  9785924286364940110790142), (124, 0, 75558007984038931857816), (125, 0,
  75558007984038931857816), (141, 0, 9785924286364940110790142), (142, 0,
  9785924286364940110790142), (143, 0, 9785924286364940110790142), (144, 0,
  9785924286364940110790142), (145, 0, 9785924286364940110790142), (147, 0,
  9785924286364940110790142), (148, 0, 147573952589676412928), (149, 0, 147573952589676412928),
  (151, 0, 9785924286364940110790142), (152, 0, 9785924286364940110790142), (153, 0,
  9785924286364940110790142), (196, 0, 9785924286364940110790142), (197, 0,
  9785924286364940110790142), (198, 0, 9785924286364940110790142), (199, 0,
  9785924286364940110790142), (199, 8, 48473911697274508523994622), (200, 0,
  9671572577613696783613952), (201, 0, 9671572577613696783613952), (203, 0,
  9785924286364940110790142), (205, 0, 9785924286364940110790142), (206, 0,
  9785924286364940110790142), (207, 0, 9785924286364940110790142), (210, 0,
  9785924286364940110790142), (211, 0, 9785924286364940110790142), (215, 0,
  9785924286364940110790142), (216, 0, 9785924286364940110790142), (219, 0,
  9785924286364940110790142), (220, 0, 9785924286364940110790142), (221, 0,
  9785924286364940110790142), (223, 0, 9785924286364940110790142), (233, 0,
  9785924286364940110790142), (234, 0, 9785924286364940110790142), (242, 0,
  9785924286364940110790142), (243, 0, 9785924286364940110790142)],
  [(264, 9, 38761184091394047914017792)],
  [(265, 9, 38761184091394047914017792)],
  [(114, 9, 48473911697274508523994622)],
  [(126, 0, 77919047110285678608792), (127, 0, 77919047110285678608792), (128, 0,
  77919047110285678608792), (129, 0, 77919047110285678608792), (130, 0,
  115697978973242840318360), (131, 0, 115697978973242840318360), (132, 0,
  115697978973242840318360), (133, 0, 115697978973242840318360), (134, 0,
  115697978973242840318360), (135, 0, 115697978973242840318360), (137, 0,
  115697978973242840318360), (137, 8, 115698843664371295453592), (139, 0,
  115697978973242840318360), (140, 0, 115697978973242840318360), (148, 0, 147573952589676412928),
  (149, 0, 147573952589676412928)],
  [(126, 1, 75558440329603159425432), (128, 0, 75558440329603159425432), (129, 0,
  75558440329603159425432), (130, 0, 113337372192560321135000), (131, 0,
  113337372192560321135000), (132, 0, 113337372192560321135000), (133, 0,
  113337372192560321135000), (134, 0, 113337372192560321135000), (135, 0,
  113337372192560321135000), (137, 0, 113337372192560321135000), (139, 0,
  113337372192560321135000), (139, 8, 115698843664371295453592), (140, 0,
  113337372192560321135000), (148, 0, 147573952589676412928), (149, 0, 147573952589676412928)],
  [(238, 7, 48473911697274508524125694)],
  [(239, 7, 48473911697274508524125694)],
  [(241, 7, 48473914579578270041243134)],
  [(233, 9, 48473911697274508523994622), (234, 9, 48473911697274508523994622)],
  [(147, 9, 48473911697274508523994622)]]

/-- The items of the states from 575: production, place in it, tokens that may follow. -/
def lalrItems23 : List (List (Nat × Nat × Nat)) := [
  [(203, 9, 48473911697274508523994622)],
  [(19, 1, 9748145354501982949080574), (21, 0, 9748145354501982949080574), (22, 0,
  9748145354501982949080574), (23, 0, 9785924286364940110790142), (24, 0,
  9785924286364940110790142), (25, 0, 9785924286364940110790142), (26, 0,
  9785924286364940110790142), (27, 0, 9785924286364940110790142), (28, 0,
  9785924286364940110790142), (29, 0, 9785924286364940110790142), (30, 0,
  9785924286364940110790142), (31, 0, 9785924286364940110790142), (32, 0,
  9785924286364940110790142), (33, 0, 9785924286364940110790142), (34, 0,
  9785924286364940110790142), (35, 0, 9785924286364940110790142), (36, 0,
  9785924286364940110790142), (37, 0, 9785924286364940110790142), (38, 0,
  9785924286364940110790142), (39, 0, 9785924286364940110790142), (40, 0,
  9785924286364940110790142), (41, 0, 9785924286364940110790142), (42, 0,
  9785924286364940110790142), (43, 0, 9785924286364940110790142), (44, 0,
  9785924286364940110790142), (45, 0, 9785924286364940110790142), (46, 0,
  9785924286364940110790142), (47, 0, 9785924286364940110790142), (48, 0,
  9785924286364940110790142), (49, 0, 9785924286364940110790142), (50, 0,
  9785924286364940110790142), (51, 0, 9785924286364940110790142), (52, 0,
  9785924286364940110790142), (53, 0, 9785924286364940110790142), (54, 0,
  9785924286364940110790142), (55, 0, 9785924286364940110790142), (56, 0,
  9785924286364940110790142), (57, 0, 9785924286364940110790142), (58, 0,
  9785924286364940110790142), (59, 0, 9785924286364940110790142), (60, 0,
  9785924286364940110790142), (61, 0, 9785924286364940110790142), (62, 0,
  9785924286364940110790142), (63, 0, 9785924286364940110790142), (64, 0,
  9785924286364940110790142), (65, 0, 9785924286364940110790142), (66, 0,
  9785924286364940110790142), (67, 0, 9785924286364940110790142), (68, 0,
  9785924286364940110790142), (69, 0, 9785924286364940110790142), (70, 0,
  14521355333486472297709568), (71, 0, 14521355333486472297709568), (72, 0,
  14521355333486472297709568), (73, 0, 14521355333486472297709568), (74, 0,
  9785924286364940110790142), (75, 0, 14521355333486472297709568), (76, 0,
  14521355333486472297709568), (77, 0, 14521355333486472297709568), (78, 0,
  14521355333486472297709568), (99, 0, 9785924286364940110790142), (100, 0,
  9785924286364940110790142), (101, 0, 9785924286364940110790142), (102, 0,
  9785924286364940110790142), (103, 0, 9785924286364940110790142), (104, 0,
  9785924286364940110790142), (105, 0, 9785924286364940110790142), (106, 0,
  9785924286364940110790142), (107, 0, 9785924286364940110790142), (108, 0,
  9785924286364940110790142), (109, 0, 9785924286364940110790142), (110, 0,
  9785924286364940110790142), (111, 0, 9785924286364940110790142), (114, 0,
  9785924286364940110790142), (115, 0, 9750506249513041619975678), (116, 0,
  9750506249513041619975678), (117, 0, 9785924286364940110790142), (118, 0,
  9785924286364940110790142), (119, 0, 9785924286364940110790142), (121, 0,
  9785924286364940110790142), (123, 0, 9785924286364940110790142), (124, 0,
  75558007984038931857816), (125, 0, 75558007984038931857816), (141, 0,
  9785924286364940110790142), (142, 0, 9785924286364940110790142), (143, 0,
  9785924286364940110790142), (144, 0, 9785924286364940110790142), (145, 0,
  9785924286364940110790142), (147, 0, 9785924286364940110790142), (148, 0,
  147573952589676412928), (149, 0, 147573952589676412928), (151, 0, 9785924286364940110790142),
  (152, 0, 9785924286364940110790142), (153, 0, 9785924286364940110790142), (196, 0,
  9785924286364940110790142), (197, 0, 9785924286364940110790142), (198, 0,
  9785924286364940110790142), (199, 0, 9785924286364940110790142), (199, 9,
  48473911697274508523994622), (200, 0, 9671572577613696783613952), (201, 0,
  9671572577613696783613952), (203, 0, 9785924286364940110790142), (205, 0,
  9785924286364940110790142), (206, 0, 9785924286364940110790142), (207, 0,
  9785924286364940110790142), (210, 0, 9785924286364940110790142), (211, 0,
  9785924286364940110790142), (215, 0, 9785924286364940110790142), (216, 0,
  9785924286364940110790142), (219, 0, 9785924286364940110790142), (220, 0,
  9785924286364940110790142), (221, 0, 9785924286364940110790142), (223, 0,
  9785924286364940110790142), (233, 0, 9785924286364940110790142), (234, 0,
  9785924286364940110790142), (242, 0, 9785924286364940110790142), (243, 0,
  9785924286364940110790142)],
  [(264, 10, 38761184091394047914017792)],
  [(265, 10, 38761184091394047914017792)],
  [(114, 10, 48473911697274508523994622)],
  [(126, 1, 77919047110285678608792), (128, 0, 77919047110285678608792), (129, 0,
  77919047110285678608792), (130, 0, 115697978973242840318360), (131, 0,
  115697978973242840318360), (132, 0, 115697978973242840318360), (133, 0,
  115697978973242840318360), (134, 0, 115697978973242840318360), (135, 0,
  115697978973242840318360), (137, 0, 115697978973242840318360), (137, 9,
  115698843664371295453592), (139, 0, 115697978973242840318360), (140, 0,
  115697978973242840318360), (148, 0, 147573952589676412928), (149, 0, 147573952589676412928)],
  [(139, 9, 115698843664371295453592)],
  [(238, 8, 48473911697274508524125694)],
  [(233, 10, 48473911697274508523994622)],
  [(190, 0, 576460752303423488), (191, 0, 576460752303423488), (192, 0, 5188146770730811392),
  (193, 0, 5188146770730811392), (194, 0, 6341068275337658368), (195, 0, 6341068275337658368),
  (234, 10, 48473911697274508523994622)],
  [(199, 10, 48473911697274508523994622)],
  [(265, 11, 38761184091394047914017792)],
  [(137, 10, 115698843664371295453592)],
  [(234, 11, 48473911697274508523994622)],
  [(137, 11, 115698843664371295453592)],
  [(234, 12, 48473911697274508523994622)]]

/-- The items of all states. -/
def lalrItems : List (List (List (Nat × Nat × Nat))) := [
  lalrItems0, lalrItems1, lalrItems2, lalrItems3, lalrItems4, lalrItems5, lalrItems6, lalrItems7,
  lalrItems8, lalrItems9, lalrItems10, lalrItems11, lalrItems12, lalrItems13, lalrItems14,
  lalrItems15, lalrItems16, lalrItems17, lalrItems18, lalrItems19, lalrItems20, lalrItems21,
  lalrItems22, lalrItems23]

/-- The nonterminals, whether they may be empty, and the tokens they may begin with. -/
def lalrFirst : List (Nat × Bool × Nat) := [
  (100, false, 9673407884533842808143872), (101, false, 18143410569962678252470272), (102, false,
  18143410569962678252470272), (103, false, 256), (104, false, 512), (105, false,
  75557863725914323419904), (106, false, 75557863725914323419904), (107, false, 768), (108,
  false, 768), (109, false, 9746964420642947721068544), (110, false, 73786976294838206464), (111,
  false, 9746964420642947721068544), (112, false, 2147485730), (113, false,
  9748145066271606797368830), (114, false, 9748145066271606797368830), (115, false, 589952),
  (116, false, 268435456), (117, false, 268435456), (118, false, 9671406556917033397649408),
  (119, false, 75557863725914323419136), (120, false, 75557863725914323419136), (121, false,
  70369012613120), (122, false, 9671572577613696783613952), (123, false,
  9671406556917033397780480), (124, false, 142936512201112), (125, false, 1024), (126, true,
  2305843009213693952), (127, true, 9671406701032221473505280), (128, false,
  9671406701032221473505280), (129, false, 2361183241434822606848), (130, false, 57344), (131,
  false, 262144), (132, false, 1048576), (133, false, 2097152), (134, false,
  9822522284368862044618752), (135, false, 69256347648), (136, false,
  21760664753063325144711168), (137, false, 35184439197696), (138, false, 35184439197696), (139,
  false, 75557863761098762616832), (140, false, 75557863761098762616832), (141, false, 20971520),
  (142, false, 20971520), (143, false, 8388608), (144, false, 9671406556917033397649408), (145,
  false, 35184439197696), (146, false, 9748145066271606797368830), (147, false,
  9748145066271606797368830), (148, true, 9671409006875230687199232), (149, true,
  9671406701032221473505280), (150, false, 36029346804137984), (151, false,
  9671406556917033397649408), (152, false, 9673407740418654732288000), (153, false,
  9671408862760042611343360), (154, true, 0), (155, true, 0), (156, true, 0), (157, true, 0),
  (158, true, 0), (159, true, 0), (160, true, 0), (161, true, 0), (162, true, 0), (163, true, 0),
  (164, true, 0), (165, true, 0), (166, true, 0), (167, false, 9671406556917033397649408), (168,
  false, 9671406556917033397649408), (169, false, 9671406556917033397649408), (170, false,
  1073741824), (171, false, 8589934592), (172, false, 17179869184), (173, false, 17179869184),
  (174, false, 34359738368), (175, false, 3626777458843887524118528), (176, false, 137438953472),
  (177, false, 274877906944), (178, false, 9671406556917033397649408), (179, false,
  549755813888), (180, false, 1099511889920), (181, false, 75557863868850856001944), (182, false,
  75557863868850856001944), (183, false, 75557863868850856001944), (184, false, 2147485730),
  (185, false, 4398046511104), (186, false, 8796093022208), (187, false, 2199023255552), (188,
  false, 2147485730), (189, true, 75557863761168018966272), (190, false, 17592186044416), (191,
  false, 14507114447061568523862016), (192, false, 1024), (193, false, 75557863725914323420160),
  (194, false, 75557863725914323420160), (195, false, 35184439197696), (196, false,
  14521355333486472297709568), (197, false, 14507114447061568523862016), (198, false, 1024),
  (199, false, 69256347648), (200, false, 70368744177664), (201, false,
  906694364710971881029632), (202, false, 4503599627370496), (203, false, 281474976710656), (204,
  false, 140737488355328), (205, false, 3940649673949184), (206, false, 9007199254740992), (207,
  false, 36028797018963968), (208, false, 4294971460), (209, false, 13298188627446939349155840),
  (210, false, 13298188627446939349155840), (211, false, 13307707147388973477789696), (212,
  false, 4294971460)]

/-- The productions, with the symbols numbered, in pieces of 20. -/
def codedRules : List (List (Nat × List Nat)) := [
  [(189, []), (189, [199]), (189, [120, 199]), (189, [137]), (189, [120, 137]), (189, [192]),
  (189, [120, 192]), (189, [108]), (189, [120, 108]), (189, [120]), (199, [135, 114]), (120,
  [119]), (120, [119, 120]), (119, [76]), (135, [36, 67, 83, 61, 136, 59]), (135, [29, 83, 136,
  70]), (136, [84]), (136, [81]), (114, [147]), (147, [147, 146])],
  [(147, [146]), (146, [113]), (146, [113, 75]), (113, [124]), (113, [203]), (113, [185]), (113,
  [202]), (113, [188]), (113, [212]), (113, [184]), (113, [187]), (113, [205]), (113, [177]),
  (113, [186]), (113, [144]), (113, [172]), (113, [180]), (113, [150]), (113, [151]), (113,
  [121])],
  [(113, [133]), (113, [190]), (113, [176]), (113, [170]), (113, [171]), (113, [130]), (113,
  [125]), (113, [132]), (113, [174]), (113, [206]), (113, [70]), (113, [76]), (124, [204]), (124,
  [3, 83, 70]), (124, [8, 83, 196, 70]), (124, [41, 83, 70]), (124, [4, 83, 70]), (124, [115]),
  (204, [47, 83, 70]), (204, [47, 83, 61, 118, 70])],
  [(204, [47, 83, 0, 196, 70]), (204, [47, 83, 0, 196, 61, 118, 70]), (115, [7, 83, 70]), (115,
  [16, 67, 83, 61, 83, 59]), (115, [19, 67, 57, 83, 71, 61, 83, 59]), (115, [19, 67, 83, 61, 83,
  59]), (202, [52, 83, 0, 196, 70]), (203, [48, 83, 118, 70]), (185, [42, 83, 118, 70]), (188,
  [112, 196, 196, 60, 196, 196, 70]), (112, [1]), (112, [5]), (112, [11]), (112, [31]), (212,
  [208, 196, 196, 60, 196, 83, 211, 70]), (208, [2]), (208, [6]), (208, [12]), (208, [32]), (211,
  [66, 210, 58])],
  [(211, [73, 211]), (211, [209]), (210, [210, 209]), (210, [209]), (209, [83]), (209, [80]),
  (209, [81]), (209, [62]), (196, [66, 197, 58]), (196, [73, 196]), (196, [191]), (196, [72]),
  (197, [197, 191]), (197, [191]), (191, [83]), (191, [62, 83]), (191, [82]), (118, [118, 61,
  83]), (118, [83]), (184, [112, 196, 196, 70])],
  [(187, [41, 83, 54, 196, 70]), (205, [51, 196, 196, 60, 196, 83, 70]), (205, [51, 196, 196, 60,
  196, 83, 82, 70]), (205, [50, 196, 196, 60, 196, 83, 70]), (205, [49, 196, 196, 60, 196, 83,
  70]), (177, [38, 196, 196, 60, 196, 169, 70]), (186, [43, 196, 196, 83, 70]), (186, [43, 196,
  196, 60, 196, 83, 70]), (144, [83, 67, 102, 59]), (144, [83, 67, 59]), (172, [173, 147, 71,
  59]), (172, [173, 71, 59]), (160, []), (159, []), (172, [173, 147, 71, 61, 160, 57, 159, 147,
  71, 59]), (173, [34, 67, 57]), (173, [34, 67, 57, 75]), (180, [131, 57, 183, 71, 59]), (180,
  [131, 57, 75, 183, 71, 59]), (180, [131, 183, 59])],
  [(163, []), (180, [40, 66, 163, 183, 58]), (164, []), (180, [40, 66, 75, 164, 183, 58]), (131,
  [18, 67]), (131, [18, 67, 75]), (183, [183, 182]), (183, [182]), (182, [181]), (182, [181,
  75]), (181, [47, 118, 70]), (181, [3, 118, 70]), (181, [41, 118, 70]), (181, [4, 118, 70]),
  (181, [7, 118, 70]), (181, [8, 83, 196, 70]), (162, []), (181, [141, 67, 57, 83, 71, 61, 57,
  162, 183, 71, 59]), (161, []), (181, [141, 67, 57, 83, 71, 61, 161, 183, 59])],
  [(181, [76]), (151, [83]), (150, [142]), (150, [143]), (150, [179]), (150, [207]), (156, []),
  (142, [141, 67, 57, 83, 71, 61, 156, 148, 59]), (141, [22]), (141, [24]), (157, []), (143, [23,
  67, 157, 148, 59]), (179, [39, 67, 57, 100, 71, 59]), (207, [55, 67, 57, 147, 71, 59]), (100,
  [152]), (100, [152, 100]), (100, [57, 152, 71]), (152, [83]), (152, [67]), (152, [59])],
  [(152, [66]), (152, [58]), (152, [61]), (152, [69]), (152, [60]), (152, [70]), (152, [62]),
  (122, [83]), (122, [64, 122]), (122, [122, 56, 122]), (122, [122, 68, 122]), (122, [122, 74,
  122]), (122, [122, 63, 122]), (122, [122, 65, 122]), (122, [67, 122, 59]), (155, []), (148,
  [155, 149]), (158, []), (148, [148, 61, 158, 149]), (149, [])],
  [(149, [57, 71]), (149, [57, 147, 71]), (149, [83]), (101, [211]), (101, [82]), (101, [57, 197,
  71]), (101, [57, 71]), (102, [101]), (102, [102, 61, 101]), (102, [102, 191]), (169, [168, 62,
  168]), (169, [168]), (168, [167]), (168, [167, 60, 167]), (167, [83]), (167, [83, 69, 83]),
  (121, [200]), (121, [116]), (116, [117, 122, 59, 66, 147, 58]), (116, [117, 122, 59, 66, 147,
  58, 27, 66, 147, 58])],
  [(117, [28, 67]), (117, [28, 67, 75]), (166, []), (200, [46, 67, 57, 166, 122, 71, 61, 148,
  59]), (165, []), (200, [46, 67, 165, 122, 61, 148, 59]), (133, [21, 83, 83, 134]), (133, [21,
  80, 83, 134]), (134, [123]), (134, [77, 123]), (190, [44, 83, 123]), (176, [37, 83, 175, 123]),
  (175, [80]), (175, [81]), (175, [81, 62, 81]), (170, [30, 83, 123, 123]), (171, [33, 201,
  123]), (201, [78, 78]), (201, [79, 79]), (130, [14, 83, 123, 70])],
  [(130, [15, 83, 123, 70]), (130, [13, 83, 123, 70]), (154, []), (125, [10, 67, 154, 128, 126,
  59]), (128, [57, 83, 71]), (128, [83]), (126, []), (126, [61, 127]), (127, []), (127, [57, 100,
  71]), (127, [83]), (153, [83, 61]), (153, [61]), (132, [20, 67, 153, 153, 197, 61, 169, 61,
  169, 59]), (132, [20, 67, 153, 153, 197, 61, 169, 61, 169, 61, 169, 59]), (123, [178]), (123,
  [17, 67, 178, 59]), (123, [17, 67, 178, 61, 169, 59]), (123, [17, 67, 178, 61, 169, 61, 169,
  59]), (123, [17, 67, 178, 61, 169, 61, 59])],
  [(178, [83, 60, 83, 60, 83]), (178, [83, 60, 83, 60, 83, 60, 169]), (174, [35, 83, 70]), (206,
  [53, 83, 83, 70]), (137, [145, 140]), (137, [145]), (140, [140, 139]), (140, [139]), (139,
  [145]), (139, [76]), (145, [195, 147, 129]), (145, [195, 75, 147, 129]), (145, [195, 129]),
  (145, [195, 75, 129]), (195, [138, 67, 57, 83, 71, 61, 57]), (129, [71, 59]), (138, [26]),
  (138, [45]), (192, [198, 194]), (192, [198])],
  [(194, [194, 193]), (194, [193]), (193, [198]), (193, [76]), (198, [10, 67, 57, 83, 71, 61, 57,
  196, 71, 59]), (198, [10, 67, 57, 83, 71, 61, 57, 196, 179, 71, 59]), (108, [107, 106]), (108,
  [107]), (106, [106, 105]), (106, [105]), (105, [107]), (105, [76]), (107, [103]), (107, [104]),
  (103, [8, 83, 110]), (103, [8, 83, 25, 83]), (103, [8, 83, 25, 83, 110]), (104, [9, 83, 110]),
  (110, [66, 111, 58]), (111, [111, 109])],
  [(111, [109]), (109, [83]), (109, [76])]]

/-- The nonterminals and their productions. -/
def lalrProds : List (Nat × List Nat) := [
  (100, [154, 155, 156]), (101, [183, 184, 185, 186]), (102, [187, 188, 189]), (103, [274, 275,
  276]), (104, [277]), (105, [270, 271]), (106, [268, 269]), (107, [272, 273]), (108, [266,
  267]), (109, [281, 282]), (110, [278]), (111, [279, 280]), (112, [70, 71, 72, 73]), (113, [23,
  24, 25, 26, 27, 28, 29, 30, 31, 32, 33, 34, 35, 36, 37, 38, 39, 40, 41, 42, 43, 44, 45, 46, 47,
  48, 49, 50, 51]), (114, [18]), (115, [62, 63, 64, 65]), (116, [198, 199]), (117, [200, 201]),
  (118, [97, 98]), (119, [13]), (120, [11, 12]), (121, [196, 197]), (122, [167, 168, 169, 170,
  171, 172, 173, 174]), (123, [235, 236, 237, 238, 239]), (124, [52, 53, 54, 55, 56, 57]), (125,
  [223]), (126, [226, 227]), (127, [228, 229, 230]), (128, [224, 225]), (129, [255]), (130, [219,
  220, 221]), (131, [124, 125]), (132, [233, 234]), (133, [206, 207]), (134, [208, 209]), (135,
  [14, 15]), (136, [16, 17]), (137, [244, 245]), (138, [256, 257]), (139, [248, 249]), (140,
  [246, 247]), (141, [148, 149]), (142, [147]), (143, [151]), (144, [108, 109]), (145, [250, 251,
  252, 253]), (146, [21, 22]), (147, [19, 20]), (148, [176, 178]), (149, [179, 180, 181, 182]),
  (150, [142, 143, 144, 145]), (151, [141]), (152, [157, 158, 159, 160, 161, 162, 163, 164, 165,
  166]), (153, [231, 232]), (154, [222]), (155, [175]), (156, [146]), (157, [150]), (158, [177]),
  (159, [113]), (160, [112]), (161, [138]), (162, [136]), (163, [120]), (164, [122]), (165,
  [204]), (166, [202]), (167, [194, 195]), (168, [192, 193]), (169, [190, 191]), (170, [215]),
  (171, [216]), (172, [110, 111, 114]), (173, [115, 116]), (174, [242]), (175, [212, 213, 214]),
  (176, [211]), (177, [105]), (178, [240, 241]), (179, [152]), (180, [117, 118, 119, 121, 123]),
  (181, [130, 131, 132, 133, 134, 135, 137, 139, 140]), (182, [128, 129]), (183, [126, 127]),
  (184, [99]), (185, [68]), (186, [106, 107]), (187, [100]), (188, [69]), (189, [0, 1, 2, 3, 4,
  5, 6, 7, 8, 9]), (190, [210]), (191, [94, 95, 96]), (192, [258, 259]), (193, [262, 263]), (194,
  [260, 261]), (195, [254]), (196, [88, 89, 90, 91]), (197, [92, 93]), (198, [264, 265]), (199,
  [10]), (200, [203, 205]), (201, [217, 218]), (202, [66]), (203, [67]), (204, [58, 59, 60, 61]),
  (205, [101, 102, 103, 104]), (206, [243]), (207, [153]), (208, [75, 76, 77, 78]), (209, [84,
  85, 86, 87]), (210, [82, 83]), (211, [79, 80, 81]), (212, [74])]

end Lr
end Selint

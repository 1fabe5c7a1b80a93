import Verif.Lemmas.Lalr
/-!
# How a file can be ended that has been begun

For every nonterminal a production with which it comes to an end, and for every state a production
that the parser is in the middle of there and that it may finish, so that in the end the file is
complete; each with a number that descends. Computed by a script; only what `LalrPrefix.lean`
checks about them is used.
-/

namespace Selint
namespace Lr

/-- The nonterminals in the order of their numbers: a production and a number. -/
def ntEnds : List (Nat × Nat) := [
  (154, 2), (184, 1), (187, 2), (275, 1), (277, 4), (271, 1), (269, 2), (272, 2), (267, 3), (281,
  1), (278, 3), (280, 2), (70, 1), (50, 1), (18, 4), (62, 1), (198, 4), (200, 1), (98, 1), (13,
  1), (11, 2), (196, 4), (167, 1), (235, 2), (53, 1), (223, 2), (226, 1), (228, 1), (225, 1),
  (255, 1), (219, 3), (124, 1), (233, 4), (206, 4), (208, 3), (15, 2), (16, 1), (245, 4), (256,
  1), (249, 1), (247, 2), (148, 1), (147, 3), (151, 3), (109, 1), (252, 3), (21, 2), (20, 3),
  (176, 2), (179, 1), (142, 4), (141, 1), (157, 1), (232, 1), (222, 1), (175, 1), (146, 1), (150,
  1), (177, 1), (113, 1), (112, 1), (138, 1), (136, 1), (120, 1), (122, 1), (204, 1), (202, 1),
  (194, 1), (192, 2), (191, 3), (215, 3), (216, 3), (111, 2), (115, 1), (242, 1), (212, 1), (211,
  3), (105, 4), (240, 1), (152, 3), (119, 4), (140, 1), (128, 2), (127, 3), (99, 2), (68, 2),
  (106, 2), (100, 2), (69, 2), (0, 1), (210, 3), (94, 1), (259, 3), (263, 1), (261, 2), (254, 2),
  (91, 1), (93, 2), (264, 2), (10, 5), (205, 3), (217, 1), (66, 2), (67, 2), (58, 1), (101, 2),
  (243, 1), (153, 4), (75, 1), (84, 1), (83, 2), (81, 2), (74, 3)]

/-- The states from 0: a production, the place in it, a number. -/
def stateEnds0 : List (Nat × Nat × Nat) := [
  (0, 0, 0), (0, 0, 0), (1, 1, 1), (2, 1, 1), (3, 1, 1), (5, 1, 1), (7, 1, 1), (10, 1, 2), (11,
  1, 2), (244, 1, 2), (258, 1, 2), (266, 1, 2), (14, 1, 3), (15, 1, 3), (13, 1, 3), (250, 1, 4),
  (264, 1, 4), (272, 1, 4), (273, 1, 4), (254, 1, 5), (274, 1, 5), (277, 1, 5), (256, 1, 6),
  (257, 1, 6), (2, 2, 1)]

/-- The states from 25: a production, the place in it, a number. -/
def stateEnds1 : List (Nat × Nat × Nat) := [
  (4, 2, 1), (6, 2, 1), (8, 2, 1), (10, 2, 1), (18, 1, 2), (20, 1, 3), (21, 1, 4), (23, 1, 5),
  (24, 1, 5), (25, 1, 5), (26, 1, 5), (27, 1, 5), (28, 1, 5), (29, 1, 5), (30, 1, 5), (31, 1, 5),
  (32, 1, 5), (33, 1, 5), (34, 1, 5), (35, 1, 5), (36, 1, 5), (37, 1, 5), (38, 1, 5), (39, 1, 5),
  (40, 1, 5)]

/-- The states from 50: a production, the place in it, a number. -/
def stateEnds2 : List (Nat × Nat × Nat) := [
  (41, 1, 5), (42, 1, 5), (43, 1, 5), (44, 1, 5), (45, 1, 5), (46, 1, 5), (47, 1, 5), (48, 1, 5),
  (49, 1, 5), (50, 1, 5), (51, 1, 5), (52, 1, 6), (53, 1, 6), (54, 1, 6), (55, 1, 6), (56, 1, 6),
  (57, 1, 6), (67, 1, 6), (68, 1, 6), (66, 1, 6), (69, 1, 6), (74, 1, 6), (101, 1, 6), (103, 1,
  6), (104, 1, 6)]

/-- The states from 75: a production, the place in it, a number. -/
def stateEnds3 : List (Nat × Nat × Nat) := [
  (105, 1, 6), (106, 1, 6), (108, 1, 6), (110, 1, 6), (117, 1, 6), (121, 1, 6), (142, 1, 6),
  (143, 1, 6), (144, 1, 6), (145, 1, 6), (196, 1, 6), (197, 1, 6), (206, 1, 6), (210, 1, 6),
  (211, 1, 6), (215, 1, 6), (216, 1, 6), (219, 1, 6), (220, 1, 6), (221, 1, 6), (223, 1, 6),
  (233, 1, 6), (242, 1, 6), (243, 1, 6), (58, 1, 7)]

/-- The states from 100: a production, the place in it, a number. -/
def stateEnds4 : List (Nat × Nat × Nat) := [
  (62, 1, 7), (63, 1, 7), (64, 1, 7), (70, 1, 7), (71, 1, 7), (72, 1, 7), (73, 1, 7), (75, 1, 7),
  (76, 1, 7), (77, 1, 7), (78, 1, 7), (115, 1, 7), (124, 1, 7), (147, 1, 7), (151, 1, 7), (152,
  1, 7), (153, 1, 7), (203, 1, 7), (198, 1, 7), (148, 1, 8), (149, 1, 8), (200, 1, 8), (12, 2,
  1), (244, 2, 1), (247, 1, 2)]

/-- The states from 125: a production, the place in it, a number. -/
def stateEnds5 : List (Nat × Nat × Nat) := [
  (248, 1, 3), (249, 1, 3), (258, 2, 1), (261, 1, 2), (262, 1, 3), (263, 1, 3), (266, 2, 1),
  (269, 1, 2), (270, 1, 3), (271, 1, 3), (14, 2, 1), (15, 2, 1), (250, 2, 1), (251, 2, 1), (252,
  2, 1), (255, 1, 2), (264, 2, 1), (254, 2, 1), (274, 2, 1), (277, 2, 1), (19, 2, 1), (22, 2, 1),
  (53, 2, 1), (54, 2, 1), (55, 2, 1)]

/-- The states from 150: a production, the place in it, a number. -/
def stateEnds6 : List (Nat × Nat × Nat) := [
  (56, 2, 1), (67, 2, 1), (68, 2, 1), (66, 2, 1), (69, 2, 1), (88, 1, 2), (89, 1, 2), (90, 1, 2),
  (91, 1, 2), (94, 1, 3), (95, 1, 3), (96, 1, 3), (74, 2, 1), (101, 2, 1), (103, 2, 1), (104, 2,
  1), (105, 2, 1), (106, 2, 1), (108, 2, 1), (110, 2, 1), (111, 2, 1), (117, 2, 1), (119, 2, 1),
  (127, 1, 2), (128, 1, 3)]

/-- The states from 175: a production, the place in it, a number. -/
def stateEnds7 : List (Nat × Nat × Nat) := [
  (130, 1, 4), (131, 1, 4), (132, 1, 4), (133, 1, 4), (134, 1, 4), (135, 1, 4), (137, 1, 4),
  (140, 1, 4), (121, 2, 1), (206, 2, 1), (207, 2, 1), (210, 2, 1), (211, 2, 1), (215, 2, 1),
  (216, 2, 1), (217, 1, 2), (218, 1, 2), (219, 2, 1), (220, 2, 1), (221, 2, 1), (223, 2, 1),
  (233, 2, 1), (242, 2, 1), (243, 2, 1), (58, 2, 1)]

/-- The states from 200: a production, the place in it, a number. -/
def stateEnds8 : List (Nat × Nat × Nat) := [
  (62, 2, 1), (63, 2, 1), (64, 2, 1), (115, 2, 1), (124, 2, 1), (147, 2, 1), (151, 2, 1), (152,
  2, 1), (153, 2, 1), (203, 2, 1), (198, 2, 1), (167, 1, 2), (168, 1, 2), (174, 1, 2), (200, 2,
  1), (246, 2, 1), (260, 2, 1), (268, 2, 1), (14, 3, 1), (15, 3, 1), (16, 1, 2), (17, 1, 2),
  (250, 3, 1), (251, 3, 1), (253, 3, 1)]

/-- The states from 225: a production, the place in it, a number. -/
def stateEnds9 : List (Nat × Nat × Nat) := [
  (255, 2, 1), (264, 3, 1), (254, 3, 1), (274, 3, 1), (275, 3, 1), (278, 1, 2), (277, 3, 1), (53,
  3, 1), (54, 3, 1), (55, 3, 1), (100, 3, 1), (56, 3, 1), (67, 3, 1), (98, 1, 2), (68, 3, 1),
  (66, 3, 1), (69, 3, 1), (88, 2, 1), (93, 1, 2), (89, 2, 1), (95, 2, 1), (74, 3, 1), (101, 3,
  1), (103, 3, 1), (104, 3, 1)]

/-- The states from 250: a production, the place in it, a number. -/
def stateEnds10 : List (Nat × Nat × Nat) := [
  (105, 3, 1), (106, 3, 1), (108, 3, 1), (109, 3, 1), (187, 1, 2), (183, 1, 3), (184, 1, 3),
  (185, 1, 3), (79, 1, 4), (80, 1, 4), (81, 1, 4), (84, 1, 5), (85, 1, 5), (86, 1, 5), (87, 1,
  5), (110, 3, 1), (111, 3, 1), (117, 3, 1), (118, 3, 1), (119, 3, 1), (126, 2, 1), (129, 2, 1),
  (130, 2, 1), (131, 2, 1), (132, 2, 1)]

/-- The states from 275: a production, the place in it, a number. -/
def stateEnds11 : List (Nat × Nat × Nat) := [
  (133, 2, 1), (134, 2, 1), (135, 2, 1), (137, 2, 1), (121, 3, 1), (123, 3, 1), (206, 3, 1),
  (207, 3, 1), (210, 3, 1), (235, 1, 3), (236, 1, 3), (240, 1, 4), (211, 3, 1), (212, 1, 2),
  (213, 1, 2), (215, 3, 1), (216, 3, 1), (217, 2, 1), (218, 2, 1), (219, 3, 1), (220, 3, 1),
  (221, 3, 1), (223, 3, 1), (233, 3, 1), (231, 1, 2)]

/-- The states from 300: a production, the place in it, a number. -/
def stateEnds12 : List (Nat × Nat × Nat) := [
  (232, 1, 2), (242, 3, 1), (243, 3, 1), (58, 3, 1), (59, 3, 1), (60, 3, 1), (62, 3, 1), (63, 3,
  1), (64, 3, 1), (65, 3, 1), (115, 3, 1), (125, 3, 1), (147, 3, 1), (151, 3, 1), (152, 3, 1),
  (153, 3, 1), (203, 3, 1), (205, 3, 1), (169, 2, 1), (170, 2, 1), (171, 2, 1), (172, 2, 1),
  (173, 2, 1), (198, 3, 1), (168, 2, 1)]

/-- The states from 325: a production, the place in it, a number. -/
def stateEnds13 : List (Nat × Nat × Nat) := [
  (174, 2, 1), (201, 3, 1), (14, 4, 1), (15, 4, 1), (251, 4, 1), (264, 4, 1), (254, 4, 1), (275,
  4, 1), (278, 2, 1), (280, 1, 2), (281, 1, 3), (282, 1, 3), (54, 4, 1), (100, 4, 1), (67, 4, 1),
  (97, 2, 1), (68, 4, 1), (66, 4, 1), (69, 4, 1), (99, 4, 1), (88, 3, 1), (92, 2, 1), (74, 4, 1),
  (101, 4, 1), (103, 4, 1)]

/-- The states from 350: a production, the place in it, a number. -/
def stateEnds14 : List (Nat × Nat × Nat) := [
  (104, 4, 1), (105, 4, 1), (106, 4, 1), (107, 4, 1), (108, 4, 1), (188, 2, 1), (189, 2, 1),
  (185, 2, 1), (186, 2, 1), (79, 2, 1), (83, 1, 2), (80, 2, 1), (110, 4, 1), (114, 4, 1), (117,
  4, 1), (118, 4, 1), (130, 3, 1), (131, 3, 1), (132, 3, 1), (133, 3, 1), (134, 3, 1), (135, 3,
  1), (137, 3, 1), (121, 4, 1), (123, 4, 1)]

/-- The states from 375: a production, the place in it, a number. -/
def stateEnds15 : List (Nat × Nat × Nat) := [
  (206, 4, 1), (208, 1, 2), (209, 1, 2), (207, 4, 1), (236, 2, 1), (240, 2, 1), (211, 4, 1),
  (214, 2, 1), (215, 4, 1), (219, 4, 1), (220, 4, 1), (221, 4, 1), (223, 4, 1), (224, 1, 2),
  (225, 1, 2), (233, 4, 1), (231, 2, 1), (243, 4, 1), (59, 4, 1), (60, 4, 1), (63, 4, 1), (64, 4,
  1), (65, 4, 1), (116, 4, 1), (147, 4, 1)]

/-- The states from 400: a production, the place in it, a number. -/
def stateEnds16 : List (Nat × Nat × Nat) := [
  (151, 4, 1), (176, 1, 2), (152, 4, 1), (154, 1, 2), (156, 1, 2), (157, 1, 3), (158, 1, 3),
  (159, 1, 3), (160, 1, 3), (161, 1, 3), (162, 1, 3), (163, 1, 3), (164, 1, 3), (165, 1, 3),
  (166, 1, 3), (153, 4, 1), (203, 4, 1), (205, 4, 1), (169, 3, 1), (170, 3, 1), (171, 3, 1),
  (172, 3, 1), (173, 3, 1), (198, 4, 1), (174, 3, 1)]

/-- The states from 425: a production, the place in it, a number. -/
def stateEnds17 : List (Nat × Nat × Nat) := [
  (14, 5, 1), (264, 5, 1), (254, 5, 1), (276, 5, 1), (278, 3, 1), (279, 2, 1), (100, 5, 1), (97,
  3, 1), (66, 5, 1), (69, 5, 1), (74, 5, 1), (101, 5, 1), (103, 5, 1), (104, 5, 1), (105, 5, 1),
  (106, 5, 1), (107, 5, 1), (188, 3, 1), (185, 3, 1), (79, 3, 1), (82, 2, 1), (114, 5, 1), (117,
  5, 1), (118, 5, 1), (135, 4, 1)]

/-- The states from 450: a production, the place in it, a number. -/
def stateEnds18 : List (Nat × Nat × Nat) := [
  (137, 4, 1), (121, 5, 1), (123, 5, 1), (209, 2, 1), (236, 3, 1), (240, 3, 1), (214, 3, 1),
  (223, 5, 1), (227, 1, 2), (224, 2, 1), (233, 5, 1), (59, 5, 1), (60, 5, 1), (61, 5, 1), (63, 5,
  1), (64, 5, 1), (65, 5, 1), (147, 5, 1), (151, 5, 1), (178, 2, 1), (176, 2, 1), (180, 1, 2),
  (182, 1, 2), (152, 5, 1), (155, 2, 1)]

/-- The states from 475: a production, the place in it, a number. -/
def stateEnds19 : List (Nat × Nat × Nat) := [
  (156, 2, 1), (153, 5, 1), (203, 5, 1), (205, 5, 1), (198, 5, 1), (14, 6, 1), (264, 6, 1), (254,
  6, 1), (69, 6, 1), (74, 6, 1), (101, 6, 1), (103, 6, 1), (104, 6, 1), (105, 6, 1), (190, 1, 2),
  (192, 1, 3), (194, 1, 4), (107, 6, 1), (114, 6, 1), (118, 6, 1), (137, 5, 1), (123, 6, 1),
  (236, 4, 1), (237, 4, 1), (240, 4, 1)]

/-- The states from 500: a production, the place in it, a number. -/
def stateEnds20 : List (Nat × Nat × Nat) := [
  (223, 6, 1), (227, 2, 1), (229, 1, 2), (230, 1, 2), (224, 3, 1), (233, 6, 1), (61, 6, 1), (63,
  6, 1), (64, 6, 1), (65, 6, 1), (147, 6, 1), (178, 3, 1), (180, 2, 1), (181, 2, 1), (152, 6, 1),
  (156, 3, 1), (153, 6, 1), (203, 6, 1), (205, 6, 1), (198, 6, 1), (264, 7, 1), (254, 7, 1), (69,
  7, 1), (74, 7, 1), (101, 7, 1)]

/-- The states from 525: a production, the place in it, a number. -/
def stateEnds21 : List (Nat × Nat × Nat) := [
  (102, 7, 1), (103, 7, 1), (104, 7, 1), (105, 7, 1), (190, 2, 1), (193, 2, 1), (195, 2, 1),
  (107, 7, 1), (114, 7, 1), (137, 6, 1), (237, 5, 1), (240, 5, 1), (229, 2, 1), (233, 7, 1), (61,
  7, 1), (64, 7, 1), (147, 7, 1), (178, 4, 1), (181, 3, 1), (203, 7, 1), (205, 7, 1), (199, 7,
  1), (264, 8, 1), (74, 8, 1), (102, 8, 1)]

/-- The states from 550: a production, the place in it, a number. -/
def stateEnds22 : List (Nat × Nat × Nat) := [
  (190, 3, 1), (193, 3, 1), (195, 3, 1), (114, 8, 1), (137, 7, 1), (139, 7, 1), (237, 6, 1),
  (238, 6, 1), (241, 6, 1), (229, 3, 1), (233, 8, 1), (64, 8, 1), (147, 8, 1), (203, 8, 1), (199,
  8, 1), (264, 9, 1), (265, 9, 1), (114, 9, 1), (137, 8, 1), (139, 8, 1), (238, 7, 1), (239, 7,
  1), (241, 7, 1), (233, 9, 1), (147, 9, 1)]

/-- The states from 575: a production, the place in it, a number. -/
def stateEnds23 : List (Nat × Nat × Nat) := [
  (203, 9, 1), (199, 9, 1), (264, 10, 1), (265, 10, 1), (114, 10, 1), (137, 9, 1), (139, 9, 1),
  (238, 8, 1), (233, 10, 1), (234, 10, 1), (199, 10, 1), (265, 11, 1), (137, 10, 1), (234, 11,
  1), (137, 11, 1), (234, 12, 1)]

/-- All states. -/
def stateEnds : List (List (Nat × Nat × Nat)) := [
  stateEnds0, stateEnds1, stateEnds2, stateEnds3, stateEnds4, stateEnds5, stateEnds6, stateEnds7,
  stateEnds8, stateEnds9, stateEnds10, stateEnds11, stateEnds12, stateEnds13, stateEnds14,
  stateEnds15, stateEnds16, stateEnds17, stateEnds18, stateEnds19, stateEnds20, stateEnds21,
  stateEnds22, stateEnds23]

end Lr
end Selint

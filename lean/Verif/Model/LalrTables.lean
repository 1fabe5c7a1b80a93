import Verif.Model.LrLines
/-!
# The tables of the parser (parse.y)

The LALR(1) tables of the grammar of `Lr.lean`, which bison computes when SELint is built: for
every state the tokens that are shifted and the state that follows, the state that follows when
a nonterminal has been put on the stack, and the production that is reduced, by the token that
was read. parse.y:171-176 decides between shifting and reducing where both are possible, which is
the case only inside conditions.

The tables were computed by a script from the productions of `Lr.lean` and are not trusted: that
they are right is what is proved about them.

As in bison's tables, most states have a default reduction, which is the one for the most tokens
and is used for all other tokens for which the state has nothing to do; so it may be a while
before a syntax error is noticed. States in which a statement may begin have none, because they
also shift the token `error` (parse.y:342).

Simplification: the states are numbered in the order in which the script found them.
-/

namespace Selint
namespace Lr

/-- parse.y:83-183: the tokens that occur in the grammar, numbered. -/
def Term.code : Term → Nat
  | .kw .alias => 0
  | .kw .allow => 1
  | .kw .allowXperm => 2
  | .kw .attribute => 3
  | .kw .attributeRole => 4
  | .kw .auditAllow => 5
  | .kw .auditAllowXperm => 6
  | .kw .bool => 7
  | .kw .cls => 8
  | .kw .common => 9
  | .kw .define => 10
  | .kw .dontAudit => 11
  | .kw .dontAuditXperm => 12
  | .kw .fsUseTask => 13
  | .kw .fsUseTrans => 14
  | .kw .fsUseXattr => 15
  | .kw .genBool => 16
  | .kw .genContext => 17
  | .kw .genRequire => 18
  | .kw .genTunable => 19
  | .kw .genUser => 20
  | .kw .genfscon => 21
  | .kw .ifdef => 22
  | .kw .ifelse => 23
  | .kw .ifndef => 24
  | .kw .inherits => 25
  | .kw .interface => 26
  | .kw .kwElse => 27
  | .kw .kwIf => 28
  | .kw .module => 29
  | .kw .netifcon => 30
  | .kw .neverAllow => 31
  | .kw .neverAllowXperm => 32
  | .kw .nodecon => 33
  | .kw .optionalPolicy => 34
  | .kw .permissive => 35
  | .kw .policyModule => 36
  | .kw .portcon => 37
  | .kw .rangeTransition => 38
  | .kw .refpolicywarn => 39
  | .kw .require => 40
  | .kw .role => 41
  | .kw .roleAttribute => 42
  | .kw .roleTransition => 43
  | .kw .sid => 44
  | .kw .template => 45
  | .kw .tunablePolicy => 46
  | .kw .type => 47
  | .kw .typeAttribute => 48
  | .kw .typeChange => 49
  | .kw .typeMember => 50
  | .kw .typeTransition => 51
  | .kw .typealias => 52
  | .kw .typebounds => 53
  | .kw .types => 54
  | .kw .userdebugOrEng => 55
  | .p .and => 56
  | .p .backtick => 57
  | .p .closeCurly => 58
  | .p .closeParen => 59
  | .p .colon => 60
  | .p .comma => 61
  | .p .dash => 62
  | .p .equal => 63
  | .p .not => 64
  | .p .notEqual => 65
  | .p .openCurly => 66
  | .p .openParen => 67
  | .p .or => 68
  | .p .period => 69
  | .p .semicolon => 70
  | .p .singleQuote => 71
  | .p .star => 72
  | .p .tilda => 73
  | .p .xor => 74
  | .command => 75
  | .comment => 76
  | .fileType => 77
  | .ipv4 => 78
  | .ipv6 => 79
  | .numString => 80
  | .number => 81
  | .quoted => 82
  | .string => 83
  | .versionNo => 84
  | .eof => 85
  | _ => 99

/-- parse.y:199-1076: the nonterminals, numbered. -/
def Nt.code : Nt → Nat
  | .arbitraryM4String => 100
  | .arg => 101
  | .args => 102
  | .avClassDefinition => 103
  | .avCommonDefinition => 104
  | .avContent => 105
  | .avContents => 106
  | .avDefinition => 107
  | .avFile => 108
  | .avPermission => 109
  | .avPermissionList => 110
  | .avPermissions => 111
  | .avType => 112
  | .bareLine => 113
  | .body => 114
  | .boolDeclaration => 115
  | .booleanBlock => 116
  | .booleanOpen => 117
  | .commaStringList => 118
  | .comment => 119
  | .comments => 120
  | .condExpr => 121
  | .condition => 122
  | .context => 123
  | .declaration => 124
  | .define => 125
  | .defineContent => 126
  | .defineExpansion => 127
  | .defineName => 128
  | .endInterface => 129
  | .fsUse => 130
  | .genRequireBegin => 131
  | .genUser => 132
  | .genfscon => 133
  | .genfsconContext => 134
  | .header => 135
  | .headerVersion => 136
  | .ifFile => 137
  | .ifKeyword => 138
  | .ifLine => 139
  | .ifLines => 140
  | .ifOrIfn => 141
  | .ifdef => 142
  | .ifelse => 143
  | .interfaceCall => 144
  | .interfaceDef => 145
  | .line => 146
  | .lines => 147
  | .m4Args => 148
  | .m4Argument => 149
  | .m4Call => 150
  | .m4SimpleMacro => 151
  | .m4StringElem => 152
  | .maybeStringComma => 153
  | .midDefine => 154
  | .midFirstArg => 155
  | .midIfdef => 156
  | .midIfelse => 157
  | .midNextArg => 158
  | .midOptionalElse => 159
  | .midOptionalEnd => 160
  | .midReqIfdef => 161
  | .midReqIfdefQuoted => 162
  | .midRequire => 163
  | .midRequireCommand => 164
  | .midTunable => 165
  | .midTunableQuoted => 166
  | .mlsComponent => 167
  | .mlsLevel => 168
  | .mlsRange => 169
  | .netifcon => 170
  | .nodecon => 171
  | .optionalBlock => 172
  | .optionalOpen => 173
  | .permissive => 174
  | .portRange => 175
  | .portcon => 176
  | .rangeTransition => 177
  | .rawContext => 178
  | .refpolicywarn => 179
  | .require => 180
  | .requireBare => 181
  | .requireLine => 182
  | .requireLines => 183
  | .roleAllow => 184
  | .roleAttribute => 185
  | .roleTransition => 186
  | .roleTypes => 187
  | .rule => 188
  | .selinuxFile => 189
  | .sid => 190
  | .slItem => 191
  | .sptFile => 192
  | .sptLine => 193
  | .sptLines => 194
  | .startInterface => 195
  | .stringList => 196
  | .strings => 197
  | .supportDef => 198
  | .tePolicy => 199
  | .tunableBlock => 200
  | .twoIpAddrs => 201
  | .typeAlias => 202
  | .typeAttribute => 203
  | .typeDeclaration => 204
  | .typeTransition => 205
  | .typebounds => 206
  | .userdebugOrEng => 207
  | .xpermAvType => 208
  | .xpermItem => 209
  | .xpermItems => 210
  | .xpermList => 211
  | .xpermRule => 212

/-- The number of a symbol. -/
def Sym.code : Sym → Nat
  | .t x => x.code
  | .n x => x.code

/-- A state: the tokens that are shifted and the state that follows; the nonterminals and the
state that follows; the sets of tokens (as bits) and the production (its place among `rules`) that
is reduced; the default reduction. -/
structure LalrRow where
  shifts : List (Nat × Nat)
  gotos : List (Nat × Nat)
  reductions : List (Nat × Nat)
  default : Option Nat

/-- parse.y:199-1076: the states from 0. -/
def lalrRows0 : List LalrRow := [
  ⟨[(8, 20), (9, 21), (10, 16), (26, 22), (29, 13), (36, 12), (45, 23), (76, 14)], [(103, 17),
  (104, 18), (107, 11), (108, 6), (119, 8), (120, 3), (135, 7), (137, 4), (138, 19), (145, 9),
  (189, 1), (192, 5), (195, 15), (198, 10), (199, 2)], [(38685626227668133590597632, 0)], some 0⟩,
  ⟨[], [], [], none⟩,
  ⟨[], [], [(38685626227668133590597632, 1)], some 1⟩,
  ⟨[(8, 20), (9, 21), (10, 16), (26, 22), (29, 13), (36, 12), (45, 23)], [(103, 17), (104, 18),
  (107, 11), (108, 27), (135, 7), (137, 25), (138, 19), (145, 9), (192, 26), (195, 15), (198,
  10), (199, 24)], [(38685626227668133590597632, 9)], some 9⟩,
  ⟨[], [], [(38685626227668133590597632, 3)], some 3⟩,
  ⟨[], [], [(38685626227668133590597632, 5)], some 5⟩,
  ⟨[], [], [(38685626227668133590597632, 7)], some 7⟩,
  ⟨[(1, 103), (2, 107), (3, 62), (4, 65), (5, 104), (6, 108), (7, 100), (8, 63), (10, 95), (11,
  105), (12, 109), (13, 94), (14, 92), (15, 93), (16, 101), (18, 112), (19, 102), (20, 96), (21,
  87), (22, 119), (23, 114), (24, 120), (28, 121), (30, 90), (31, 106), (32, 110), (33, 91), (34,
  111), (35, 97), (37, 89), (38, 75), (39, 115), (40, 80), (41, 64), (42, 68), (43, 76), (44,
  88), (46, 117), (47, 99), (48, 67), (49, 74), (50, 73), (51, 72), (52, 69), (53, 98), (55,
  116), (70, 59), (76, 60), (83, 77)], [(112, 70), (113, 31), (114, 28), (115, 66), (116, 86),
  (117, 118), (121, 48), (124, 32), (125, 55), (130, 54), (131, 79), (132, 56), (133, 49), (141,
  113), (142, 81), (143, 82), (144, 43), (146, 30), (147, 29), (150, 46), (151, 47), (170, 52),
  (171, 53), (172, 44), (173, 78), (174, 57), (176, 51), (177, 41), (179, 83), (180, 45), (184,
  38), (185, 34), (186, 42), (187, 39), (188, 36), (190, 50), (200, 85), (202, 35), (203, 33),
  (204, 61), (205, 40), (206, 58), (207, 84), (208, 71), (212, 37)], [], none⟩,
  ⟨[(76, 14)], [(119, 8), (120, 122)], [(38685626227703387286144768, 11)], some 11⟩,
  ⟨[(26, 22), (45, 23), (76, 126)], [(138, 19), (139, 124), (140, 123), (145, 125), (195, 15)],
  [(38685626227668133590597632, 245)], some 245⟩,
  ⟨[(10, 16), (76, 130)], [(193, 128), (194, 127), (198, 129)], [(38685626227668133590597632,
  259)], some 259⟩,
  ⟨[(8, 20), (9, 21), (76, 134)], [(103, 17), (104, 18), (105, 132), (106, 131), (107, 133)],
  [(38685626227668133590597632, 267)], some 267⟩,
  ⟨[(67, 135)], [], [], none⟩,
  ⟨[(83, 136)], [], [], none⟩,
  ⟨[], [], [(38761184091429301609563904, 13)], some 13⟩,
  ⟨[(1, 103), (2, 107), (3, 62), (4, 65), (5, 104), (6, 108), (7, 100), (8, 63), (10, 95), (11,
  105), (12, 109), (13, 94), (14, 92), (15, 93), (16, 101), (18, 112), (19, 102), (20, 96), (21,
  87), (22, 119), (23, 114), (24, 120), (28, 121), (30, 90), (31, 106), (32, 110), (33, 91), (34,
  111), (35, 97), (37, 89), (38, 75), (39, 115), (40, 80), (41, 64), (42, 68), (43, 76), (44,
  88), (46, 117), (47, 99), (48, 67), (49, 74), (50, 73), (51, 72), (52, 69), (53, 98), (55,
  116), (70, 59), (71, 140), (75, 138), (76, 60), (83, 77)], [(112, 70), (113, 31), (115, 66),
  (116, 86), (117, 118), (121, 48), (124, 32), (125, 55), (129, 139), (130, 54), (131, 79), (132,
  56), (133, 49), (141, 113), (142, 81), (143, 82), (144, 43), (146, 30), (147, 137), (150, 46),
  (151, 47), (170, 52), (171, 53), (172, 44), (173, 78), (174, 57), (176, 51), (177, 41), (179,
  83), (180, 45), (184, 38), (185, 34), (186, 42), (187, 39), (188, 36), (190, 50), (200, 85),
  (202, 35), (203, 33), (204, 61), (205, 40), (206, 58), (207, 84), (208, 71), (212, 37)], [],
  none⟩,
  ⟨[(67, 141)], [], [], none⟩,
  ⟨[], [], [(38761184091394047914017536, 272)], some 272⟩,
  ⟨[], [], [(38761184091394047914017536, 273)], some 273⟩,
  ⟨[(67, 142)], [], [], none⟩,
  ⟨[(83, 143)], [], [], none⟩,
  ⟨[(83, 144)], [], [], none⟩,
  ⟨[], [], [(147573952589676412928, 256)], some 256⟩,
  ⟨[], [], [(147573952589676412928, 257)], some 257⟩,
  ⟨[], [], [(38685626227668133590597632, 2)], some 2⟩]

/-- parse.y:199-1076: the states from 25. -/
def lalrRows1 : List LalrRow := [
  ⟨[], [], [(38685626227668133590597632, 4)], some 4⟩,
  ⟨[], [], [(38685626227668133590597632, 6)], some 6⟩,
  ⟨[], [], [(38685626227668133590597632, 8)], some 8⟩,
  ⟨[], [], [(38685626227668133590597632, 10)], some 10⟩,
  ⟨[(1, 103), (2, 107), (3, 62), (4, 65), (5, 104), (6, 108), (7, 100), (8, 63), (10, 95), (11,
  105), (12, 109), (13, 94), (14, 92), (15, 93), (16, 101), (18, 112), (19, 102), (20, 96), (21,
  87), (22, 119), (23, 114), (24, 120), (28, 121), (30, 90), (31, 106), (32, 110), (33, 91), (34,
  111), (35, 97), (37, 89), (38, 75), (39, 115), (40, 80), (41, 64), (42, 68), (43, 76), (44,
  88), (46, 117), (47, 99), (48, 67), (49, 74), (50, 73), (51, 72), (52, 69), (53, 98), (55,
  116), (70, 59), (76, 60), (83, 77)], [(112, 70), (113, 31), (115, 66), (116, 86), (117, 118),
  (121, 48), (124, 32), (125, 55), (130, 54), (131, 79), (132, 56), (133, 49), (141, 113), (142,
  81), (143, 82), (144, 43), (146, 145), (150, 46), (151, 47), (170, 52), (171, 53), (172, 44),
  (173, 78), (174, 57), (176, 51), (177, 41), (179, 83), (180, 45), (184, 38), (185, 34), (186,
  42), (187, 39), (188, 36), (190, 50), (200, 85), (202, 35), (203, 33), (204, 61), (205, 40),
  (206, 58), (207, 84), (208, 71), (212, 37)], [(38685626227668133590597632, 18)], none⟩,
  ⟨[], [], [(48436132765411551362285054, 20)], some 20⟩,
  ⟨[(75, 146)], [], [(48436132765411551362285054, 21)], some 21⟩,
  ⟨[], [], [(48473911697274508523994622, 23)], some 23⟩,
  ⟨[], [], [(48473911697274508523994622, 24)], some 24⟩,
  ⟨[], [], [(48473911697274508523994622, 25)], some 25⟩,
  ⟨[], [], [(48473911697274508523994622, 26)], some 26⟩,
  ⟨[], [], [(48473911697274508523994622, 27)], some 27⟩,
  ⟨[], [], [(48473911697274508523994622, 28)], some 28⟩,
  ⟨[], [], [(48473911697274508523994622, 29)], some 29⟩,
  ⟨[], [], [(48473911697274508523994622, 30)], some 30⟩,
  ⟨[], [], [(48473911697274508523994622, 31)], some 31⟩,
  ⟨[], [], [(48473911697274508523994622, 32)], some 32⟩,
  ⟨[], [], [(48473911697274508523994622, 33)], some 33⟩,
  ⟨[], [], [(48473911697274508523994622, 34)], some 34⟩,
  ⟨[], [], [(48473911697274508523994622, 35)], some 35⟩,
  ⟨[], [], [(48473911697274508523994622, 36)], some 36⟩,
  ⟨[], [], [(48473911697274508523994622, 37)], some 37⟩,
  ⟨[], [], [(48473911697274508523994622, 38)], some 38⟩,
  ⟨[], [], [(48473911697274508523994622, 39)], some 39⟩,
  ⟨[], [], [(48473911697274508523994622, 40)], some 40⟩]

/-- parse.y:199-1076: the states from 50. -/
def lalrRows2 : List LalrRow := [
  ⟨[], [], [(48473911697274508523994622, 41)], some 41⟩,
  ⟨[], [], [(48473911697274508523994622, 42)], some 42⟩,
  ⟨[], [], [(48473911697274508523994622, 43)], some 43⟩,
  ⟨[], [], [(48473911697274508523994622, 44)], some 44⟩,
  ⟨[], [], [(48473911697274508523994622, 45)], some 45⟩,
  ⟨[], [], [(48473911697274508523994622, 46)], some 46⟩,
  ⟨[], [], [(48473911697274508523994622, 47)], some 47⟩,
  ⟨[], [], [(48473911697274508523994622, 48)], some 48⟩,
  ⟨[], [], [(48473911697274508523994622, 49)], some 49⟩,
  ⟨[], [], [(48473911697274508523994622, 50)], some 50⟩,
  ⟨[], [], [(48473911697274508523994622, 51)], some 51⟩,
  ⟨[], [], [(48473911697274508523994622, 52)], some 52⟩,
  ⟨[(83, 147)], [], [], none⟩,
  ⟨[(83, 148)], [], [], none⟩,
  ⟨[(83, 149)], [], [], none⟩,
  ⟨[(83, 150)], [], [], none⟩,
  ⟨[], [], [(48473911697274508523994622, 57)], some 57⟩,
  ⟨[(83, 151)], [], [], none⟩,
  ⟨[(83, 152)], [], [], none⟩,
  ⟨[(83, 153)], [], [], none⟩,
  ⟨[(62, 160), (66, 155), (72, 158), (73, 156), (82, 161), (83, 159)], [(191, 157), (196, 154)],
  [], none⟩,
  ⟨[(62, 160), (66, 155), (72, 158), (73, 156), (82, 161), (83, 159)], [(191, 157), (196, 162)],
  [], none⟩,
  ⟨[(62, 160), (66, 155), (72, 158), (73, 156), (82, 161), (83, 159)], [(191, 157), (196, 163)],
  [], none⟩,
  ⟨[(62, 160), (66, 155), (72, 158), (73, 156), (82, 161), (83, 159)], [(191, 157), (196, 164)],
  [], none⟩,
  ⟨[(62, 160), (66, 155), (72, 158), (73, 156), (82, 161), (83, 159)], [(191, 157), (196, 165)],
  [], none⟩]

/-- parse.y:199-1076: the states from 75. -/
def lalrRows3 : List LalrRow := [
  ⟨[(62, 160), (66, 155), (72, 158), (73, 156), (82, 161), (83, 159)], [(191, 157), (196, 166)],
  [], none⟩,
  ⟨[(62, 160), (66, 155), (72, 158), (73, 156), (82, 161), (83, 159)], [(191, 157), (196, 167)],
  [], none⟩,
  ⟨[(67, 168)], [], [(48473911697274508523994622, 141)], some 141⟩,
  ⟨[(1, 103), (2, 107), (3, 62), (4, 65), (5, 104), (6, 108), (7, 100), (8, 63), (10, 95), (11,
  105), (12, 109), (13, 94), (14, 92), (15, 93), (16, 101), (18, 112), (19, 102), (20, 96), (21,
  87), (22, 119), (23, 114), (24, 120), (28, 121), (30, 90), (31, 106), (32, 110), (33, 91), (34,
  111), (35, 97), (37, 89), (38, 75), (39, 115), (40, 80), (41, 64), (42, 68), (43, 76), (44,
  88), (46, 117), (47, 99), (48, 67), (49, 74), (50, 73), (51, 72), (52, 69), (53, 98), (55,
  116), (70, 59), (71, 170), (76, 60), (83, 77)], [(112, 70), (113, 31), (115, 66), (116, 86),
  (117, 118), (121, 48), (124, 32), (125, 55), (130, 54), (131, 79), (132, 56), (133, 49), (141,
  113), (142, 81), (143, 82), (144, 43), (146, 30), (147, 169), (150, 46), (151, 47), (170, 52),
  (171, 53), (172, 44), (173, 78), (174, 57), (176, 51), (177, 41), (179, 83), (180, 45), (184,
  38), (185, 34), (186, 42), (187, 39), (188, 36), (190, 50), (200, 85), (202, 35), (203, 33),
  (204, 61), (205, 40), (206, 58), (207, 84), (208, 71), (212, 37)], [], none⟩,
  ⟨[(3, 176), (4, 178), (7, 179), (8, 180), (22, 119), (24, 120), (41, 177), (47, 175), (57,
  171), (76, 182)], [(141, 181), (181, 174), (182, 173), (183, 172)], [], none⟩,
  ⟨[(66, 183)], [], [], none⟩,
  ⟨[], [], [(48473911697274508523994622, 142)], some 142⟩,
  ⟨[], [], [(48473911697274508523994622, 143)], some 143⟩,
  ⟨[], [], [(48473911697274508523994622, 144)], some 144⟩,
  ⟨[], [], [(48473911697274508523994622, 145)], some 145⟩,
  ⟨[], [], [(48473911697274508523994622, 196)], some 196⟩,
  ⟨[], [], [(48473911697274508523994622, 197)], some 197⟩,
  ⟨[(80, 185), (83, 184)], [], [], none⟩,
  ⟨[(83, 186)], [], [], none⟩,
  ⟨[(83, 187)], [], [], none⟩,
  ⟨[(83, 188)], [], [], none⟩,
  ⟨[(78, 190), (79, 191)], [(201, 189)], [], none⟩,
  ⟨[(83, 192)], [], [], none⟩,
  ⟨[(83, 193)], [], [], none⟩,
  ⟨[(83, 194)], [], [], none⟩,
  ⟨[(67, 195)], [], [], none⟩,
  ⟨[(67, 196)], [], [], none⟩,
  ⟨[(83, 197)], [], [], none⟩,
  ⟨[(83, 198)], [], [], none⟩,
  ⟨[(83, 199)], [], [], none⟩]

/-- parse.y:199-1076: the states from 100. -/
def lalrRows4 : List LalrRow := [
  ⟨[(83, 200)], [], [], none⟩,
  ⟨[(67, 201)], [], [], none⟩,
  ⟨[(67, 202)], [], [], none⟩,
  ⟨[], [], [(14521355333486472297709568, 70)], some 70⟩,
  ⟨[], [], [(14521355333486472297709568, 71)], some 71⟩,
  ⟨[], [], [(14521355333486472297709568, 72)], some 72⟩,
  ⟨[], [], [(14521355333486472297709568, 73)], some 73⟩,
  ⟨[], [], [(14521355333486472297709568, 75)], some 75⟩,
  ⟨[], [], [(14521355333486472297709568, 76)], some 76⟩,
  ⟨[], [], [(14521355333486472297709568, 77)], some 77⟩,
  ⟨[], [], [(14521355333486472297709568, 78)], some 78⟩,
  ⟨[(67, 203)], [], [], none⟩,
  ⟨[(67, 204)], [], [], none⟩,
  ⟨[(67, 205)], [], [], none⟩,
  ⟨[(67, 206)], [], [], none⟩,
  ⟨[(67, 207)], [], [], none⟩,
  ⟨[(67, 208)], [], [], none⟩,
  ⟨[(67, 209)], [], [], none⟩,
  ⟨[(64, 212), (67, 213), (83, 211)], [(122, 210)], [], none⟩,
  ⟨[], [], [(147573952589676412928, 148)], some 148⟩,
  ⟨[], [], [(147573952589676412928, 149)], some 149⟩,
  ⟨[(67, 214)], [], [], none⟩,
  ⟨[], [], [(38685626227703387286144768, 12)], some 12⟩,
  ⟨[(26, 22), (45, 23), (76, 126)], [(138, 19), (139, 215), (145, 125), (195, 15)],
  [(38685626227668133590597632, 244)], some 244⟩,
  ⟨[], [], [(38761184091429232353214464, 247)], some 247⟩]

/-- parse.y:199-1076: the states from 125. -/
def lalrRows5 : List LalrRow := [
  ⟨[], [], [(38761184091429232353214464, 248)], some 248⟩,
  ⟨[], [], [(38761184091429232353214464, 249)], some 249⟩,
  ⟨[(10, 16), (76, 130)], [(193, 216), (198, 129)], [(38685626227668133590597632, 258)], some
  258⟩,
  ⟨[], [], [(38761184091394047914017792, 261)], some 261⟩,
  ⟨[], [], [(38761184091394047914017792, 262)], some 262⟩,
  ⟨[], [], [(38761184091394047914017792, 263)], some 263⟩,
  ⟨[(8, 20), (9, 21), (76, 134)], [(103, 17), (104, 18), (105, 217), (107, 133)],
  [(38685626227668133590597632, 266)], some 266⟩,
  ⟨[], [], [(38761184091394047914017536, 269)], some 269⟩,
  ⟨[], [], [(38761184091394047914017536, 270)], some 270⟩,
  ⟨[], [], [(38761184091394047914017536, 271)], some 271⟩,
  ⟨[(83, 218)], [], [], none⟩,
  ⟨[(81, 221), (84, 220)], [(136, 219)], [], none⟩,
  ⟨[(1, 103), (2, 107), (3, 62), (4, 65), (5, 104), (6, 108), (7, 100), (8, 63), (10, 95), (11,
  105), (12, 109), (13, 94), (14, 92), (15, 93), (16, 101), (18, 112), (19, 102), (20, 96), (21,
  87), (22, 119), (23, 114), (24, 120), (28, 121), (30, 90), (31, 106), (32, 110), (33, 91), (34,
  111), (35, 97), (37, 89), (38, 75), (39, 115), (40, 80), (41, 64), (42, 68), (43, 76), (44,
  88), (46, 117), (47, 99), (48, 67), (49, 74), (50, 73), (51, 72), (52, 69), (53, 98), (55,
  116), (70, 59), (71, 140), (76, 60), (83, 77)], [(112, 70), (113, 31), (115, 66), (116, 86),
  (117, 118), (121, 48), (124, 32), (125, 55), (129, 222), (130, 54), (131, 79), (132, 56), (133,
  49), (141, 113), (142, 81), (143, 82), (144, 43), (146, 145), (150, 46), (151, 47), (170, 52),
  (171, 53), (172, 44), (173, 78), (174, 57), (176, 51), (177, 41), (179, 83), (180, 45), (184,
  38), (185, 34), (186, 42), (187, 39), (188, 36), (190, 50), (200, 85), (202, 35), (203, 33),
  (204, 61), (205, 40), (206, 58), (207, 84), (208, 71), (212, 37)], [], none⟩,
  ⟨[(1, 103), (2, 107), (3, 62), (4, 65), (5, 104), (6, 108), (7, 100), (8, 63), (10, 95), (11,
  105), (12, 109), (13, 94), (14, 92), (15, 93), (16, 101), (18, 112), (19, 102), (20, 96), (21,
  87), (22, 119), (23, 114), (24, 120), (28, 121), (30, 90), (31, 106), (32, 110), (33, 91), (34,
  111), (35, 97), (37, 89), (38, 75), (39, 115), (40, 80), (41, 64), (42, 68), (43, 76), (44,
  88), (46, 117), (47, 99), (48, 67), (49, 74), (50, 73), (51, 72), (52, 69), (53, 98), (55,
  116), (70, 59), (71, 140), (76, 60), (83, 77)], [(112, 70), (113, 31), (115, 66), (116, 86),
  (117, 118), (121, 48), (124, 32), (125, 55), (129, 224), (130, 54), (131, 79), (132, 56), (133,
  49), (141, 113), (142, 81), (143, 82), (144, 43), (146, 30), (147, 223), (150, 46), (151, 47),
  (170, 52), (171, 53), (172, 44), (173, 78), (174, 57), (176, 51), (177, 41), (179, 83), (180,
  45), (184, 38), (185, 34), (186, 42), (187, 39), (188, 36), (190, 50), (200, 85), (202, 35),
  (203, 33), (204, 61), (205, 40), (206, 58), (207, 84), (208, 71), (212, 37)], [], none⟩,
  ⟨[], [], [(38761184091429232353214464, 252)], some 252⟩,
  ⟨[(59, 225)], [], [], none⟩,
  ⟨[(57, 226)], [], [], none⟩,
  ⟨[(57, 227)], [], [], none⟩,
  ⟨[(25, 229), (66, 230)], [(110, 228)], [], none⟩,
  ⟨[(66, 230)], [(110, 231)], [], none⟩,
  ⟨[], [], [(48436132765411551362285054, 19)], some 19⟩,
  ⟨[], [], [(48436132765411551362285054, 22)], some 22⟩,
  ⟨[(70, 232)], [], [], none⟩,
  ⟨[(62, 160), (66, 155), (72, 158), (73, 156), (82, 161), (83, 159)], [(191, 157), (196, 233)],
  [], none⟩,
  ⟨[(54, 235), (70, 234)], [], [], none⟩]

/-- parse.y:199-1076: the states from 150. -/
def lalrRows6 : List LalrRow := [
  ⟨[(70, 236)], [], [], none⟩,
  ⟨[(83, 238)], [(118, 237)], [], none⟩,
  ⟨[(83, 238)], [(118, 239)], [], none⟩,
  ⟨[(0, 240)], [], [], none⟩,
  ⟨[(62, 160), (66, 155), (72, 158), (73, 156), (82, 161), (83, 159)], [(191, 157), (196, 241)],
  [], none⟩,
  ⟨[(62, 160), (82, 161), (83, 159)], [(191, 243), (197, 242)], [], none⟩,
  ⟨[(62, 160), (66, 155), (72, 158), (73, 156), (82, 161), (83, 159)], [(191, 157), (196, 244)],
  [], none⟩,
  ⟨[], [], [(14524900567113688107974656, 90)], some 90⟩,
  ⟨[], [], [(14524900567113688107974656, 91)], some 91⟩,
  ⟨[], [], [(14524901431804816563109888, 94)], some 94⟩,
  ⟨[(83, 245)], [], [], none⟩,
  ⟨[], [], [(14524901431804816563109888, 96)], some 96⟩,
  ⟨[(62, 160), (66, 155), (72, 158), (73, 156), (82, 161), (83, 159)], [(191, 157), (196, 246)],
  [], none⟩,
  ⟨[(62, 160), (66, 155), (72, 158), (73, 156), (82, 161), (83, 159)], [(191, 157), (196, 247)],
  [], none⟩,
  ⟨[(62, 160), (66, 155), (72, 158), (73, 156), (82, 161), (83, 159)], [(191, 157), (196, 248)],
  [], none⟩,
  ⟨[(62, 160), (66, 155), (72, 158), (73, 156), (82, 161), (83, 159)], [(191, 157), (196, 249)],
  [], none⟩,
  ⟨[(62, 160), (66, 155), (72, 158), (73, 156), (82, 161), (83, 159)], [(191, 157), (196, 250)],
  [], none⟩,
  ⟨[(62, 160), (66, 155), (72, 158), (73, 156), (82, 161), (83, 159)], [(191, 157), (196, 251)],
  [], none⟩,
  ⟨[(57, 257), (59, 253), (62, 264), (66, 258), (73, 259), (80, 262), (81, 263), (82, 256), (83,
  261)], [(101, 254), (102, 252), (209, 260), (211, 255)], [], none⟩,
  ⟨[(1, 103), (2, 107), (3, 62), (4, 65), (5, 104), (6, 108), (7, 100), (8, 63), (10, 95), (11,
  105), (12, 109), (13, 94), (14, 92), (15, 93), (16, 101), (18, 112), (19, 102), (20, 96), (21,
  87), (22, 119), (23, 114), (24, 120), (28, 121), (30, 90), (31, 106), (32, 110), (33, 91), (34,
  111), (35, 97), (37, 89), (38, 75), (39, 115), (40, 80), (41, 64), (42, 68), (43, 76), (44,
  88), (46, 117), (47, 99), (48, 67), (49, 74), (50, 73), (51, 72), (52, 69), (53, 98), (55,
  116), (70, 59), (71, 265), (76, 60), (83, 77)], [(112, 70), (113, 31), (115, 66), (116, 86),
  (117, 118), (121, 48), (124, 32), (125, 55), (130, 54), (131, 79), (132, 56), (133, 49), (141,
  113), (142, 81), (143, 82), (144, 43), (146, 145), (150, 46), (151, 47), (170, 52), (171, 53),
  (172, 44), (173, 78), (174, 57), (176, 51), (177, 41), (179, 83), (180, 45), (184, 38), (185,
  34), (186, 42), (187, 39), (188, 36), (190, 50), (200, 85), (202, 35), (203, 33), (204, 61),
  (205, 40), (206, 58), (207, 84), (208, 71), (212, 37)], [], none⟩,
  ⟨[(59, 266)], [], [], none⟩,
  ⟨[(3, 176), (4, 178), (7, 179), (8, 180), (22, 119), (24, 120), (41, 177), (47, 175), (75,
  268), (76, 182)], [(141, 181), (181, 174), (182, 173), (183, 267)], [], none⟩,
  ⟨[(3, 176), (4, 178), (7, 179), (8, 180), (22, 119), (24, 120), (41, 177), (47, 175), (59,
  269), (76, 182)], [(141, 181), (181, 174), (182, 270)], [], none⟩,
  ⟨[], [], [(77919911801414133744024, 127)], some 127⟩,
  ⟨[(75, 271)], [], [(77919911801414133744024, 128)], some 128⟩]

/-- parse.y:199-1076: the states from 175. -/
def lalrRows7 : List LalrRow := [
  ⟨[(83, 238)], [(118, 272)], [], none⟩,
  ⟨[(83, 238)], [(118, 273)], [], none⟩,
  ⟨[(83, 238)], [(118, 274)], [], none⟩,
  ⟨[(83, 238)], [(118, 275)], [], none⟩,
  ⟨[(83, 238)], [(118, 276)], [], none⟩,
  ⟨[(83, 277)], [], [], none⟩,
  ⟨[(67, 278)], [], [], none⟩,
  ⟨[], [], [(115698843664371295453592, 140)], some 140⟩,
  ⟨[(75, 280)], [(163, 279)], [(75557863868850856001944, 120)], some 120⟩,
  ⟨[(83, 281)], [], [], none⟩,
  ⟨[(83, 282)], [], [], none⟩,
  ⟨[(17, 285), (83, 286)], [(123, 283), (178, 284)], [], none⟩,
  ⟨[(80, 288), (81, 289)], [(175, 287)], [], none⟩,
  ⟨[(17, 285), (83, 286)], [(123, 290), (178, 284)], [], none⟩,
  ⟨[(17, 285), (83, 286)], [(123, 291), (178, 284)], [], none⟩,
  ⟨[(78, 292)], [], [], none⟩,
  ⟨[(79, 293)], [], [], none⟩,
  ⟨[(17, 285), (83, 286)], [(123, 294), (178, 284)], [], none⟩,
  ⟨[(17, 285), (83, 286)], [(123, 295), (178, 284)], [], none⟩,
  ⟨[(17, 285), (83, 286)], [(123, 296), (178, 284)], [], none⟩,
  ⟨[], [(154, 297)], [(9671406701032221473505280, 222)], some 222⟩,
  ⟨[(61, 300), (83, 299)], [(153, 298)], [], none⟩,
  ⟨[(70, 301)], [], [], none⟩,
  ⟨[(83, 302)], [], [], none⟩,
  ⟨[(0, 305), (61, 304), (70, 303)], [], [], none⟩]

/-- parse.y:199-1076: the states from 200. -/
def lalrRows8 : List LalrRow := [
  ⟨[(70, 306)], [], [], none⟩,
  ⟨[(83, 307)], [], [], none⟩,
  ⟨[(57, 308), (83, 309)], [], [], none⟩,
  ⟨[(57, 310)], [], [], none⟩,
  ⟨[(75, 311)], [], [(75558007984038931857816, 124)], some 124⟩,
  ⟨[(57, 312)], [], [], none⟩,
  ⟨[], [(157, 313)], [(9671409583335982990622720, 150)], some 150⟩,
  ⟨[(57, 314)], [], [], none⟩,
  ⟨[(57, 315)], [], [], none⟩,
  ⟨[(57, 316)], [(165, 317)], [(9671572577613696783613952, 204)], some 204⟩,
  ⟨[(56, 318), (59, 323), (63, 321), (65, 322), (68, 319), (74, 320)], [], [], none⟩,
  ⟨[], [], [(21594868299632585211904, 167)], some 167⟩,
  ⟨[(64, 212), (67, 213), (83, 211)], [(122, 324)], [], none⟩,
  ⟨[(64, 212), (67, 213), (83, 211)], [(122, 325)], [], none⟩,
  ⟨[(75, 326)], [], [(9671572577613696783613952, 200)], some 200⟩,
  ⟨[], [], [(38761184091429232353214464, 246)], some 246⟩,
  ⟨[], [], [(38761184091394047914017792, 260)], some 260⟩,
  ⟨[], [], [(38761184091394047914017536, 268)], some 268⟩,
  ⟨[(61, 327)], [], [], none⟩,
  ⟨[(70, 328)], [], [], none⟩,
  ⟨[], [], [(1181168081469714726912, 16)], some 16⟩,
  ⟨[], [], [(1181168081469714726912, 17)], some 17⟩,
  ⟨[], [], [(38761184091429232353214464, 250)], some 250⟩,
  ⟨[(1, 103), (2, 107), (3, 62), (4, 65), (5, 104), (6, 108), (7, 100), (8, 63), (10, 95), (11,
  105), (12, 109), (13, 94), (14, 92), (15, 93), (16, 101), (18, 112), (19, 102), (20, 96), (21,
  87), (22, 119), (23, 114), (24, 120), (28, 121), (30, 90), (31, 106), (32, 110), (33, 91), (34,
  111), (35, 97), (37, 89), (38, 75), (39, 115), (40, 80), (41, 64), (42, 68), (43, 76), (44,
  88), (46, 117), (47, 99), (48, 67), (49, 74), (50, 73), (51, 72), (52, 69), (53, 98), (55,
  116), (70, 59), (71, 140), (76, 60), (83, 77)], [(112, 70), (113, 31), (115, 66), (116, 86),
  (117, 118), (121, 48), (124, 32), (125, 55), (129, 329), (130, 54), (131, 79), (132, 56), (133,
  49), (141, 113), (142, 81), (143, 82), (144, 43), (146, 145), (150, 46), (151, 47), (170, 52),
  (171, 53), (172, 44), (173, 78), (174, 57), (176, 51), (177, 41), (179, 83), (180, 45), (184,
  38), (185, 34), (186, 42), (187, 39), (188, 36), (190, 50), (200, 85), (202, 35), (203, 33),
  (204, 61), (205, 40), (206, 58), (207, 84), (208, 71), (212, 37)], [], none⟩,
  ⟨[], [], [(38761184091429232353214464, 253)], some 253⟩]

/-- parse.y:199-1076: the states from 225. -/
def lalrRows9 : List LalrRow := [
  ⟨[], [], [(38761184091429232353214464, 255)], some 255⟩,
  ⟨[(83, 330)], [], [], none⟩,
  ⟨[(83, 331)], [], [], none⟩,
  ⟨[], [], [(38761184091394047914017536, 274)], some 274⟩,
  ⟨[(83, 332)], [], [], none⟩,
  ⟨[(76, 336), (83, 335)], [(109, 334), (111, 333)], [], none⟩,
  ⟨[], [], [(38761184091394047914017536, 277)], some 277⟩,
  ⟨[], [], [(48473911697274508523994622, 53)], some 53⟩,
  ⟨[(70, 337)], [], [], none⟩,
  ⟨[], [], [(48473911697274508523994622, 55)], some 55⟩,
  ⟨[(62, 160), (66, 155), (72, 158), (73, 156), (82, 161), (83, 159)], [(191, 157), (196, 338)],
  [], none⟩,
  ⟨[], [], [(48473911697274508523994622, 56)], some 56⟩,
  ⟨[(61, 340), (70, 339)], [], [], none⟩,
  ⟨[], [], [(1182897463726624997376, 98)], some 98⟩,
  ⟨[(61, 340), (70, 341)], [], [], none⟩,
  ⟨[(62, 160), (66, 155), (72, 158), (73, 156), (82, 161), (83, 159)], [(191, 157), (196, 342)],
  [], none⟩,
  ⟨[(60, 343), (70, 344)], [], [], none⟩,
  ⟨[(58, 345), (62, 160), (82, 161), (83, 159)], [(191, 346)], [], none⟩,
  ⟨[], [], [(14509478224376388711874560, 93)], some 93⟩,
  ⟨[], [], [(14524900567113688107974656, 89)], some 89⟩,
  ⟨[], [], [(14524901431804816563109888, 95)], some 95⟩,
  ⟨[(60, 347)], [], [], none⟩,
  ⟨[(60, 348)], [], [], none⟩,
  ⟨[(60, 349)], [], [], none⟩,
  ⟨[(60, 350)], [], [], none⟩]

/-- parse.y:199-1076: the states from 250. -/
def lalrRows10 : List LalrRow := [
  ⟨[(60, 351)], [], [], none⟩,
  ⟨[(60, 353), (83, 352)], [], [], none⟩,
  ⟨[(59, 354), (61, 355), (62, 160), (82, 161), (83, 159)], [(191, 356)], [], none⟩,
  ⟨[], [], [(48473911697274508523994622, 109)], some 109⟩,
  ⟨[], [], [(14507117329365330040979456, 187)], some 187⟩,
  ⟨[], [], [(14507117329365330040979456, 183)], some 183⟩,
  ⟨[], [], [(14507117329365330040979456, 184)], some 184⟩,
  ⟨[(62, 160), (71, 358), (82, 161), (83, 159)], [(191, 243), (197, 357)], [], none⟩,
  ⟨[(62, 264), (80, 262), (81, 263), (83, 261)], [(209, 360), (210, 359)], [], none⟩,
  ⟨[(62, 264), (66, 258), (73, 259), (80, 262), (81, 263), (83, 261)], [(209, 260), (211, 361)],
  [], none⟩,
  ⟨[], [], [(14508297920986047452282880, 81)], some 81⟩,
  ⟨[], [], [(18135075668060311128113152, 84)], some 84⟩,
  ⟨[], [], [(18135075668060311128113152, 85)], some 85⟩,
  ⟨[], [], [(18135075668060311128113152, 86)], some 86⟩,
  ⟨[], [], [(18135075668060311128113152, 87)], some 87⟩,
  ⟨[(59, 362), (61, 363)], [], [], none⟩,
  ⟨[], [], [(48473911697274508523994622, 111)], some 111⟩,
  ⟨[(3, 176), (4, 178), (7, 179), (8, 180), (22, 119), (24, 120), (41, 177), (47, 175), (71,
  364), (76, 182)], [(141, 181), (181, 174), (182, 270)], [], none⟩,
  ⟨[(3, 176), (4, 178), (7, 179), (8, 180), (22, 119), (24, 120), (41, 177), (47, 175), (76,
  182)], [(141, 181), (181, 174), (182, 173), (183, 365)], [], none⟩,
  ⟨[], [], [(48473911697274508523994622, 119)], some 119⟩,
  ⟨[], [], [(77919911801414133744024, 126)], some 126⟩,
  ⟨[], [], [(77919911801414133744024, 129)], some 129⟩,
  ⟨[(61, 340), (70, 366)], [], [], none⟩,
  ⟨[(61, 340), (70, 367)], [], [], none⟩,
  ⟨[(61, 340), (70, 368)], [], [], none⟩]

/-- parse.y:199-1076: the states from 275. -/
def lalrRows11 : List LalrRow := [
  ⟨[(61, 340), (70, 369)], [], [], none⟩,
  ⟨[(61, 340), (70, 370)], [], [], none⟩,
  ⟨[(62, 160), (66, 155), (72, 158), (73, 156), (82, 161), (83, 159)], [(191, 157), (196, 371)],
  [], none⟩,
  ⟨[(57, 372)], [], [], none⟩,
  ⟨[(3, 176), (4, 178), (7, 179), (8, 180), (22, 119), (24, 120), (41, 177), (47, 175), (76,
  182)], [(141, 181), (181, 174), (182, 173), (183, 373)], [], none⟩,
  ⟨[], [(164, 374)], [(75557863868850856001944, 122)], some 122⟩,
  ⟨[(17, 285), (77, 377), (83, 286)], [(123, 376), (134, 375), (178, 284)], [], none⟩,
  ⟨[(17, 285), (77, 377), (83, 286)], [(123, 376), (134, 378), (178, 284)], [], none⟩,
  ⟨[], [], [(48473911697274508523994622, 210)], some 210⟩,
  ⟨[], [], [(48473911697274508524125694, 235)], some 235⟩,
  ⟨[(67, 379)], [], [], none⟩,
  ⟨[(60, 380)], [], [], none⟩,
  ⟨[(17, 285), (83, 286)], [(123, 381), (178, 284)], [], none⟩,
  ⟨[], [], [(9671406556917033397780480, 212)], some 212⟩,
  ⟨[(62, 382)], [], [(9671406556917033397780480, 213)], some 213⟩,
  ⟨[(17, 285), (83, 286)], [(123, 383), (178, 284)], [], none⟩,
  ⟨[], [], [(48473911697274508523994622, 216)], some 216⟩,
  ⟨[], [], [(9671406556917033397780480, 217)], some 217⟩,
  ⟨[], [], [(9671406556917033397780480, 218)], some 218⟩,
  ⟨[(70, 384)], [], [], none⟩,
  ⟨[(70, 385)], [], [], none⟩,
  ⟨[(70, 386)], [], [], none⟩,
  ⟨[(57, 388), (83, 389)], [(128, 387)], [], none⟩,
  ⟨[(61, 300), (83, 299)], [(153, 390)], [], none⟩,
  ⟨[(61, 391)], [], [], none⟩]

/-- parse.y:199-1076: the states from 300. -/
def lalrRows12 : List LalrRow := [
  ⟨[], [], [(14507116752904577737555968, 232)], some 232⟩,
  ⟨[], [], [(48473911697274508523994622, 242)], some 242⟩,
  ⟨[(70, 392)], [], [], none⟩,
  ⟨[], [], [(48473911697274508523994622, 58)], some 58⟩,
  ⟨[(83, 238)], [(118, 393)], [], none⟩,
  ⟨[(62, 160), (66, 155), (72, 158), (73, 156), (82, 161), (83, 159)], [(191, 157), (196, 394)],
  [], none⟩,
  ⟨[], [], [(48473911697274508523994622, 62)], some 62⟩,
  ⟨[(61, 395)], [], [], none⟩,
  ⟨[(83, 396)], [], [], none⟩,
  ⟨[(61, 397)], [], [], none⟩,
  ⟨[(75, 398)], [], [(9750506249513041619975678, 115)], some 115⟩,
  ⟨[], [], [(75558007984038931857816, 125)], some 125⟩,
  ⟨[(83, 399)], [], [], none⟩,
  ⟨[], [(148, 400), (155, 401)], [(9671409583335982990622720, 175)], some 175⟩,
  ⟨[(57, 404), (58, 409), (59, 407), (60, 412), (61, 410), (62, 414), (66, 408), (67, 406), (69,
  411), (70, 413), (83, 405)], [(100, 402), (152, 403)], [], none⟩,
  ⟨[(1, 103), (2, 107), (3, 62), (4, 65), (5, 104), (6, 108), (7, 100), (8, 63), (10, 95), (11,
  105), (12, 109), (13, 94), (14, 92), (15, 93), (16, 101), (18, 112), (19, 102), (20, 96), (21,
  87), (22, 119), (23, 114), (24, 120), (28, 121), (30, 90), (31, 106), (32, 110), (33, 91), (34,
  111), (35, 97), (37, 89), (38, 75), (39, 115), (40, 80), (41, 64), (42, 68), (43, 76), (44,
  88), (46, 117), (47, 99), (48, 67), (49, 74), (50, 73), (51, 72), (52, 69), (53, 98), (55,
  116), (70, 59), (76, 60), (83, 77)], [(112, 70), (113, 31), (115, 66), (116, 86), (117, 118),
  (121, 48), (124, 32), (125, 55), (130, 54), (131, 79), (132, 56), (133, 49), (141, 113), (142,
  81), (143, 82), (144, 43), (146, 30), (147, 415), (150, 46), (151, 47), (170, 52), (171, 53),
  (172, 44), (173, 78), (174, 57), (176, 51), (177, 41), (179, 83), (180, 45), (184, 38), (185,
  34), (186, 42), (187, 39), (188, 36), (190, 50), (200, 85), (202, 35), (203, 33), (204, 61),
  (205, 40), (206, 58), (207, 84), (208, 71), (212, 37)], [], none⟩,
  ⟨[], [(166, 416)], [(9671572577613696783613952, 202)], some 202⟩,
  ⟨[(64, 212), (67, 213), (83, 211)], [(122, 417)], [], none⟩,
  ⟨[(64, 212), (67, 213), (83, 211)], [(122, 418)], [], none⟩,
  ⟨[(64, 212), (67, 213), (83, 211)], [(122, 419)], [], none⟩,
  ⟨[(64, 212), (67, 213), (83, 211)], [(122, 420)], [], none⟩,
  ⟨[(64, 212), (67, 213), (83, 211)], [(122, 421)], [], none⟩,
  ⟨[(64, 212), (67, 213), (83, 211)], [(122, 422)], [], none⟩,
  ⟨[(66, 423)], [], [], none⟩,
  ⟨[(63, 321), (65, 322)], [], [(21548751439448311332864, 168)], some 168⟩]

/-- parse.y:199-1076: the states from 325. -/
def lalrRows13 : List LalrRow := [
  ⟨[(56, 318), (59, 424), (63, 321), (65, 322), (68, 319), (74, 320)], [], [], none⟩,
  ⟨[], [], [(9671572577613696783613952, 201)], some 201⟩,
  ⟨[(81, 221), (84, 220)], [(136, 425)], [], none⟩,
  ⟨[], [], [(9748145066271606797368830, 15)], some 15⟩,
  ⟨[], [], [(38761184091429232353214464, 251)], some 251⟩,
  ⟨[(71, 426)], [], [], none⟩,
  ⟨[(71, 427)], [], [], none⟩,
  ⟨[(66, 230)], [(110, 428)], [(38761184091394047914017536, 275)], some 275⟩,
  ⟨[(58, 429), (76, 336), (83, 335)], [(109, 430)], [], none⟩,
  ⟨[], [], [(9746964708873323872780288, 280)], some 280⟩,
  ⟨[], [], [(9746964708873323872780288, 281)], some 281⟩,
  ⟨[], [], [(9746964708873323872780288, 282)], some 282⟩,
  ⟨[], [], [(48473911697274508523994622, 54)], some 54⟩,
  ⟨[(70, 431)], [], [], none⟩,
  ⟨[], [], [(48473911697274508523994622, 67)], some 67⟩,
  ⟨[(83, 432)], [], [], none⟩,
  ⟨[], [], [(48473911697274508523994622, 68)], some 68⟩,
  ⟨[(70, 433)], [], [], none⟩,
  ⟨[(62, 160), (66, 155), (72, 158), (73, 156), (82, 161), (83, 159)], [(191, 157), (196, 434)],
  [], none⟩,
  ⟨[], [], [(48473911697274508523994622, 99)], some 99⟩,
  ⟨[], [], [(14524900567113688107974656, 88)], some 88⟩,
  ⟨[], [], [(14509478224376388711874560, 92)], some 92⟩,
  ⟨[(62, 160), (66, 155), (72, 158), (73, 156), (82, 161), (83, 159)], [(191, 157), (196, 435)],
  [], none⟩,
  ⟨[(62, 160), (66, 155), (72, 158), (73, 156), (82, 161), (83, 159)], [(191, 157), (196, 436)],
  [], none⟩,
  ⟨[(62, 160), (66, 155), (72, 158), (73, 156), (82, 161), (83, 159)], [(191, 157), (196, 437)],
  [], none⟩]

/-- parse.y:199-1076: the states from 350. -/
def lalrRows14 : List LalrRow := [
  ⟨[(62, 160), (66, 155), (72, 158), (73, 156), (82, 161), (83, 159)], [(191, 157), (196, 438)],
  [], none⟩,
  ⟨[(62, 160), (66, 155), (72, 158), (73, 156), (82, 161), (83, 159)], [(191, 157), (196, 439)],
  [], none⟩,
  ⟨[(70, 440)], [], [], none⟩,
  ⟨[(62, 160), (66, 155), (72, 158), (73, 156), (82, 161), (83, 159)], [(191, 157), (196, 441)],
  [], none⟩,
  ⟨[], [], [(48473911697274508523994622, 108)], some 108⟩,
  ⟨[(57, 257), (62, 264), (66, 258), (73, 259), (80, 262), (81, 263), (82, 256), (83, 261)],
  [(101, 442), (209, 260), (211, 255)], [], none⟩,
  ⟨[], [], [(14507117329365330040979456, 189)], some 189⟩,
  ⟨[(62, 160), (71, 443), (82, 161), (83, 159)], [(191, 346)], [], none⟩,
  ⟨[], [], [(14507117329365330040979456, 186)], some 186⟩,
  ⟨[(58, 444), (62, 264), (80, 262), (81, 263), (83, 261)], [(209, 445)], [], none⟩,
  ⟨[], [], [(13298188915677315500867584, 83)], some 83⟩,
  ⟨[], [], [(14508297920986047452282880, 80)], some 80⟩,
  ⟨[], [], [(48473911697274508523994622, 110)], some 110⟩,
  ⟨[], [(160, 446)], [(144115188075855872, 112)], some 112⟩,
  ⟨[(59, 447)], [], [], none⟩,
  ⟨[(3, 176), (4, 178), (7, 179), (8, 180), (22, 119), (24, 120), (41, 177), (47, 175), (71,
  448), (76, 182)], [(141, 181), (181, 174), (182, 270)], [], none⟩,
  ⟨[], [], [(115698843664371295453592, 130)], some 130⟩,
  ⟨[], [], [(115698843664371295453592, 131)], some 131⟩,
  ⟨[], [], [(115698843664371295453592, 132)], some 132⟩,
  ⟨[], [], [(115698843664371295453592, 133)], some 133⟩,
  ⟨[], [], [(115698843664371295453592, 134)], some 134⟩,
  ⟨[(70, 449)], [], [], none⟩,
  ⟨[(83, 450)], [], [], none⟩,
  ⟨[(3, 176), (4, 178), (7, 179), (8, 180), (22, 119), (24, 120), (41, 177), (47, 175), (58,
  451), (76, 182)], [(141, 181), (181, 174), (182, 270)], [], none⟩,
  ⟨[(3, 176), (4, 178), (7, 179), (8, 180), (22, 119), (24, 120), (41, 177), (47, 175), (76,
  182)], [(141, 181), (181, 174), (182, 173), (183, 452)], [], none⟩]

/-- parse.y:199-1076: the states from 375. -/
def lalrRows15 : List LalrRow := [
  ⟨[], [], [(48473911697274508523994622, 206)], some 206⟩,
  ⟨[], [], [(48473911697274508523994622, 208)], some 208⟩,
  ⟨[(17, 285), (83, 286)], [(123, 453), (178, 284)], [], none⟩,
  ⟨[], [], [(48473911697274508523994622, 207)], some 207⟩,
  ⟨[(83, 286)], [(178, 454)], [], none⟩,
  ⟨[(83, 455)], [], [], none⟩,
  ⟨[], [], [(48473911697274508523994622, 211)], some 211⟩,
  ⟨[(81, 456)], [], [], none⟩,
  ⟨[], [], [(48473911697274508523994622, 215)], some 215⟩,
  ⟨[], [], [(48473911697274508523994622, 219)], some 219⟩,
  ⟨[], [], [(48473911697274508523994622, 220)], some 220⟩,
  ⟨[], [], [(48473911697274508523994622, 221)], some 221⟩,
  ⟨[(61, 458)], [(126, 457)], [(576460752303423488, 226)], some 226⟩,
  ⟨[(83, 459)], [], [], none⟩,
  ⟨[], [], [(2882303761517117440, 225)], some 225⟩,
  ⟨[(62, 160), (82, 161), (83, 159)], [(191, 243), (197, 460)], [], none⟩,
  ⟨[], [], [(14507116752904577737555968, 231)], some 231⟩,
  ⟨[], [], [(48473911697274508523994622, 243)], some 243⟩,
  ⟨[(61, 340), (70, 461)], [], [], none⟩,
  ⟨[(61, 463), (70, 462)], [], [], none⟩,
  ⟨[(83, 464)], [], [], none⟩,
  ⟨[(71, 465)], [], [], none⟩,
  ⟨[(83, 466)], [], [], none⟩,
  ⟨[], [], [(9750506249513041619975678, 116)], some 116⟩,
  ⟨[(71, 467)], [], [], none⟩]

/-- parse.y:199-1076: the states from 400. -/
def lalrRows16 : List LalrRow := [
  ⟨[(59, 468), (61, 469)], [], [], none⟩,
  ⟨[(57, 471), (83, 472)], [(149, 470)], [(2882303761517117440, 179)], some 179⟩,
  ⟨[(71, 473)], [], [], none⟩,
  ⟨[(57, 404), (58, 409), (59, 407), (60, 412), (61, 410), (62, 414), (66, 408), (67, 406), (69,
  411), (70, 413), (83, 405)], [(100, 474), (152, 403)], [(2361183241434822606848, 154)], some
  154⟩,
  ⟨[(58, 409), (59, 407), (60, 412), (61, 410), (62, 414), (66, 408), (67, 406), (69, 411), (70,
  413), (83, 405)], [(152, 475)], [], none⟩,
  ⟨[], [], [(9675769067775277630750720, 157)], some 157⟩,
  ⟨[], [], [(9675769067775277630750720, 158)], some 158⟩,
  ⟨[], [], [(9675769067775277630750720, 159)], some 159⟩,
  ⟨[], [], [(9675769067775277630750720, 160)], some 160⟩,
  ⟨[], [], [(9675769067775277630750720, 161)], some 161⟩,
  ⟨[], [], [(9675769067775277630750720, 162)], some 162⟩,
  ⟨[], [], [(9675769067775277630750720, 163)], some 163⟩,
  ⟨[], [], [(9675769067775277630750720, 164)], some 164⟩,
  ⟨[], [], [(9675769067775277630750720, 165)], some 165⟩,
  ⟨[], [], [(9675769067775277630750720, 166)], some 166⟩,
  ⟨[(1, 103), (2, 107), (3, 62), (4, 65), (5, 104), (6, 108), (7, 100), (8, 63), (10, 95), (11,
  105), (12, 109), (13, 94), (14, 92), (15, 93), (16, 101), (18, 112), (19, 102), (20, 96), (21,
  87), (22, 119), (23, 114), (24, 120), (28, 121), (30, 90), (31, 106), (32, 110), (33, 91), (34,
  111), (35, 97), (37, 89), (38, 75), (39, 115), (40, 80), (41, 64), (42, 68), (43, 76), (44,
  88), (46, 117), (47, 99), (48, 67), (49, 74), (50, 73), (51, 72), (52, 69), (53, 98), (55,
  116), (70, 59), (71, 476), (76, 60), (83, 77)], [(112, 70), (113, 31), (115, 66), (116, 86),
  (117, 118), (121, 48), (124, 32), (125, 55), (130, 54), (131, 79), (132, 56), (133, 49), (141,
  113), (142, 81), (143, 82), (144, 43), (146, 145), (150, 46), (151, 47), (170, 52), (171, 53),
  (172, 44), (173, 78), (174, 57), (176, 51), (177, 41), (179, 83), (180, 45), (184, 38), (185,
  34), (186, 42), (187, 39), (188, 36), (190, 50), (200, 85), (202, 35), (203, 33), (204, 61),
  (205, 40), (206, 58), (207, 84), (208, 71), (212, 37)], [], none⟩,
  ⟨[(64, 212), (67, 213), (83, 211)], [(122, 477)], [], none⟩,
  ⟨[(56, 318), (61, 478), (63, 321), (65, 322), (68, 319), (74, 320)], [], [], none⟩,
  ⟨[(63, 321), (65, 322), (68, 319), (74, 320)], [], [(2364137602790377652224, 169)], some 169⟩,
  ⟨[(63, 321), (65, 322), (74, 320)], [], [(2659285507969730478080, 170)], some 170⟩,
  ⟨[(63, 321), (65, 322)], [], [(21548751439448311332864, 171)], some 171⟩,
  ⟨[(65, 322)], [], [(21557974811485166108672, 172)], some 172⟩,
  ⟨[], [], [(21594868299632585211904, 173)], some 173⟩,
  ⟨[(1, 103), (2, 107), (3, 62), (4, 65), (5, 104), (6, 108), (7, 100), (8, 63), (10, 95), (11,
  105), (12, 109), (13, 94), (14, 92), (15, 93), (16, 101), (18, 112), (19, 102), (20, 96), (21,
  87), (22, 119), (23, 114), (24, 120), (28, 121), (30, 90), (31, 106), (32, 110), (33, 91), (34,
  111), (35, 97), (37, 89), (38, 75), (39, 115), (40, 80), (41, 64), (42, 68), (43, 76), (44,
  88), (46, 117), (47, 99), (48, 67), (49, 74), (50, 73), (51, 72), (52, 69), (53, 98), (55,
  116), (70, 59), (76, 60), (83, 77)], [(112, 70), (113, 31), (115, 66), (116, 86), (117, 118),
  (121, 48), (124, 32), (125, 55), (130, 54), (131, 79), (132, 56), (133, 49), (141, 113), (142,
  81), (143, 82), (144, 43), (146, 30), (147, 479), (150, 46), (151, 47), (170, 52), (171, 53),
  (172, 44), (173, 78), (174, 57), (176, 51), (177, 41), (179, 83), (180, 45), (184, 38), (185,
  34), (186, 42), (187, 39), (188, 36), (190, 50), (200, 85), (202, 35), (203, 33), (204, 61),
  (205, 40), (206, 58), (207, 84), (208, 71), (212, 37)], [], none⟩,
  ⟨[], [], [(21594868299632585211904, 174)], some 174⟩]

/-- parse.y:199-1076: the states from 425. -/
def lalrRows17 : List LalrRow := [
  ⟨[(59, 480)], [], [], none⟩,
  ⟨[(61, 481)], [], [], none⟩,
  ⟨[(61, 482)], [], [], none⟩,
  ⟨[], [], [(38761184091394047914017536, 276)], some 276⟩,
  ⟨[], [], [(38761184091394047914017536, 278)], some 278⟩,
  ⟨[], [], [(9746964708873323872780288, 279)], some 279⟩,
  ⟨[], [], [(48473911697274508523994622, 100)], some 100⟩,
  ⟨[], [], [(1182897463726624997376, 97)], some 97⟩,
  ⟨[], [], [(48473911697274508523994622, 66)], some 66⟩,
  ⟨[(62, 160), (66, 155), (72, 158), (73, 156), (82, 161), (83, 159)], [(191, 157), (196, 483)],
  [], none⟩,
  ⟨[(83, 484)], [], [], none⟩,
  ⟨[(83, 485)], [], [], none⟩,
  ⟨[(83, 486)], [], [], none⟩,
  ⟨[(83, 487)], [], [], none⟩,
  ⟨[(83, 491)], [(167, 490), (168, 489), (169, 488)], [], none⟩,
  ⟨[], [], [(48473911697274508523994622, 106)], some 106⟩,
  ⟨[(83, 492)], [], [], none⟩,
  ⟨[], [], [(14507117329365330040979456, 188)], some 188⟩,
  ⟨[], [], [(14507117329365330040979456, 185)], some 185⟩,
  ⟨[], [], [(14508297920986047452282880, 79)], some 79⟩,
  ⟨[], [], [(13298188915677315500867584, 82)], some 82⟩,
  ⟨[(57, 493)], [], [], none⟩,
  ⟨[], [], [(48473911697274508523994622, 117)], some 117⟩,
  ⟨[(59, 494)], [], [], none⟩,
  ⟨[], [], [(115698843664371295453592, 135)], some 135⟩]

/-- parse.y:199-1076: the states from 450. -/
def lalrRows18 : List LalrRow := [
  ⟨[(71, 495)], [], [], none⟩,
  ⟨[], [], [(48473911697274508523994622, 121)], some 121⟩,
  ⟨[(3, 176), (4, 178), (7, 179), (8, 180), (22, 119), (24, 120), (41, 177), (47, 175), (58,
  496), (76, 182)], [(141, 181), (181, 174), (182, 270)], [], none⟩,
  ⟨[], [], [(48473911697274508523994622, 209)], some 209⟩,
  ⟨[(59, 497), (61, 498)], [], [], none⟩,
  ⟨[(60, 499)], [], [], none⟩,
  ⟨[], [], [(9671406556917033397780480, 214)], some 214⟩,
  ⟨[(59, 500)], [], [], none⟩,
  ⟨[(57, 502), (83, 503)], [(127, 501)], [(576460752303423488, 228)], some 228⟩,
  ⟨[(71, 504)], [], [], none⟩,
  ⟨[(61, 505), (62, 160), (82, 161), (83, 159)], [(191, 346)], [], none⟩,
  ⟨[], [], [(48473911697274508523994622, 59)], some 59⟩,
  ⟨[], [], [(48473911697274508523994622, 60)], some 60⟩,
  ⟨[(83, 238)], [(118, 506)], [], none⟩,
  ⟨[(59, 507)], [], [], none⟩,
  ⟨[(61, 508)], [], [], none⟩,
  ⟨[(59, 509)], [], [], none⟩,
  ⟨[(61, 510)], [], [], none⟩,
  ⟨[], [], [(48473911697274508523994622, 151)], some 151⟩,
  ⟨[], [(158, 511)], [(9671409583335982990622720, 177)], some 177⟩,
  ⟨[], [], [(2882303761517117440, 176)], some 176⟩,
  ⟨[(1, 103), (2, 107), (3, 62), (4, 65), (5, 104), (6, 108), (7, 100), (8, 63), (10, 95), (11,
  105), (12, 109), (13, 94), (14, 92), (15, 93), (16, 101), (18, 112), (19, 102), (20, 96), (21,
  87), (22, 119), (23, 114), (24, 120), (28, 121), (30, 90), (31, 106), (32, 110), (33, 91), (34,
  111), (35, 97), (37, 89), (38, 75), (39, 115), (40, 80), (41, 64), (42, 68), (43, 76), (44,
  88), (46, 117), (47, 99), (48, 67), (49, 74), (50, 73), (51, 72), (52, 69), (53, 98), (55,
  116), (70, 59), (71, 512), (76, 60), (83, 77)], [(112, 70), (113, 31), (115, 66), (116, 86),
  (117, 118), (121, 48), (124, 32), (125, 55), (130, 54), (131, 79), (132, 56), (133, 49), (141,
  113), (142, 81), (143, 82), (144, 43), (146, 30), (147, 513), (150, 46), (151, 47), (170, 52),
  (171, 53), (172, 44), (173, 78), (174, 57), (176, 51), (177, 41), (179, 83), (180, 45), (184,
  38), (185, 34), (186, 42), (187, 39), (188, 36), (190, 50), (200, 85), (202, 35), (203, 33),
  (204, 61), (205, 40), (206, 58), (207, 84), (208, 71), (212, 37)], [], none⟩,
  ⟨[], [], [(2882303761517117440, 182)], some 182⟩,
  ⟨[(59, 514)], [], [], none⟩,
  ⟨[], [], [(2361183241434822606848, 155)], some 155⟩]

/-- parse.y:199-1076: the states from 475. -/
def lalrRows19 : List LalrRow := [
  ⟨[(71, 515)], [], [], none⟩,
  ⟨[(59, 516)], [], [], none⟩,
  ⟨[(56, 318), (63, 321), (65, 322), (68, 319), (71, 517), (74, 320)], [], [], none⟩,
  ⟨[], [(148, 518), (155, 401)], [(9671409583335982990622720, 175)], some 175⟩,
  ⟨[(1, 103), (2, 107), (3, 62), (4, 65), (5, 104), (6, 108), (7, 100), (8, 63), (10, 95), (11,
  105), (12, 109), (13, 94), (14, 92), (15, 93), (16, 101), (18, 112), (19, 102), (20, 96), (21,
  87), (22, 119), (23, 114), (24, 120), (28, 121), (30, 90), (31, 106), (32, 110), (33, 91), (34,
  111), (35, 97), (37, 89), (38, 75), (39, 115), (40, 80), (41, 64), (42, 68), (43, 76), (44,
  88), (46, 117), (47, 99), (48, 67), (49, 74), (50, 73), (51, 72), (52, 69), (53, 98), (55,
  116), (58, 519), (70, 59), (76, 60), (83, 77)], [(112, 70), (113, 31), (115, 66), (116, 86),
  (117, 118), (121, 48), (124, 32), (125, 55), (130, 54), (131, 79), (132, 56), (133, 49), (141,
  113), (142, 81), (143, 82), (144, 43), (146, 145), (150, 46), (151, 47), (170, 52), (171, 53),
  (172, 44), (173, 78), (174, 57), (176, 51), (177, 41), (179, 83), (180, 45), (184, 38), (185,
  34), (186, 42), (187, 39), (188, 36), (190, 50), (200, 85), (202, 35), (203, 33), (204, 61),
  (205, 40), (206, 58), (207, 84), (208, 71), (212, 37)], [], none⟩,
  ⟨[], [], [(9748145066271606797368830, 14)], some 14⟩,
  ⟨[(57, 520)], [], [], none⟩,
  ⟨[(57, 521)], [], [], none⟩,
  ⟨[(70, 522)], [], [], none⟩,
  ⟨[(62, 264), (66, 258), (73, 259), (80, 262), (81, 263), (83, 261)], [(209, 260), (211, 523)],
  [], none⟩,
  ⟨[(70, 524), (82, 525)], [], [], none⟩,
  ⟨[(70, 526)], [], [], none⟩,
  ⟨[(70, 527)], [], [], none⟩,
  ⟨[(70, 528)], [], [], none⟩,
  ⟨[(62, 529)], [], [(48473914579578270041243134, 191)], some 191⟩,
  ⟨[(60, 530)], [], [(48473919191264288468631038, 192)], some 192⟩,
  ⟨[(69, 531)], [], [(48473920344185793075478014, 194)], some 194⟩,
  ⟨[(70, 532)], [], [], none⟩,
  ⟨[], [(159, 533)], [(9748145066271606797368830, 113)], some 113⟩,
  ⟨[], [], [(48473911697274508523994622, 118)], some 118⟩,
  ⟨[(61, 534)], [], [], none⟩,
  ⟨[], [], [(48473911697274508523994622, 123)], some 123⟩,
  ⟨[], [], [(48473911697274508524125694, 236)], some 236⟩,
  ⟨[(83, 491)], [(167, 490), (168, 489), (169, 535)], [], none⟩,
  ⟨[(83, 536)], [], [], none⟩]

/-- parse.y:199-1076: the states from 500. -/
def lalrRows20 : List LalrRow := [
  ⟨[], [], [(48473911697274508523994622, 223)], some 223⟩,
  ⟨[], [], [(576460752303423488, 227)], some 227⟩,
  ⟨[(57, 404), (58, 409), (59, 407), (60, 412), (61, 410), (62, 414), (66, 408), (67, 406), (69,
  411), (70, 413), (83, 405)], [(100, 537), (152, 403)], [], none⟩,
  ⟨[], [], [(576460752303423488, 230)], some 230⟩,
  ⟨[], [], [(2882303761517117440, 224)], some 224⟩,
  ⟨[(83, 491)], [(167, 490), (168, 489), (169, 538)], [], none⟩,
  ⟨[(61, 340), (70, 539)], [], [], none⟩,
  ⟨[], [], [(48473911697274508523994622, 63)], some 63⟩,
  ⟨[(83, 540)], [], [], none⟩,
  ⟨[], [], [(48473911697274508523994622, 65)], some 65⟩,
  ⟨[], [(156, 541)], [(9671409583335982990622720, 146)], some 146⟩,
  ⟨[(57, 471), (83, 472)], [(149, 542)], [(2882303761517117440, 179)], some 179⟩,
  ⟨[], [], [(2882303761517117440, 180)], some 180⟩,
  ⟨[(1, 103), (2, 107), (3, 62), (4, 65), (5, 104), (6, 108), (7, 100), (8, 63), (10, 95), (11,
  105), (12, 109), (13, 94), (14, 92), (15, 93), (16, 101), (18, 112), (19, 102), (20, 96), (21,
  87), (22, 119), (23, 114), (24, 120), (28, 121), (30, 90), (31, 106), (32, 110), (33, 91), (34,
  111), (35, 97), (37, 89), (38, 75), (39, 115), (40, 80), (41, 64), (42, 68), (43, 76), (44,
  88), (46, 117), (47, 99), (48, 67), (49, 74), (50, 73), (51, 72), (52, 69), (53, 98), (55,
  116), (70, 59), (71, 543), (76, 60), (83, 77)], [(112, 70), (113, 31), (115, 66), (116, 86),
  (117, 118), (121, 48), (124, 32), (125, 55), (130, 54), (131, 79), (132, 56), (133, 49), (141,
  113), (142, 81), (143, 82), (144, 43), (146, 145), (150, 46), (151, 47), (170, 52), (171, 53),
  (172, 44), (173, 78), (174, 57), (176, 51), (177, 41), (179, 83), (180, 45), (184, 38), (185,
  34), (186, 42), (187, 39), (188, 36), (190, 50), (200, 85), (202, 35), (203, 33), (204, 61),
  (205, 40), (206, 58), (207, 84), (208, 71), (212, 37)], [], none⟩,
  ⟨[], [], [(48473911697274508523994622, 152)], some 152⟩,
  ⟨[], [], [(2361183241434822606848, 156)], some 156⟩,
  ⟨[], [], [(48473911697274508523994622, 153)], some 153⟩,
  ⟨[(61, 544)], [], [], none⟩,
  ⟨[(59, 545), (61, 469)], [], [], none⟩,
  ⟨[(27, 546)], [], [(48473911697274508523994622, 198)], some 198⟩,
  ⟨[(62, 160), (66, 155), (72, 158), (73, 156), (82, 161), (83, 159)], [(191, 157), (196, 547)],
  [], none⟩,
  ⟨[], [], [(9788285181375998781685246, 254)], some 254⟩,
  ⟨[], [], [(48473911697274508523994622, 69)], some 69⟩,
  ⟨[(70, 548)], [], [], none⟩,
  ⟨[], [], [(48473911697274508523994622, 101)], some 101⟩]

/-- parse.y:199-1076: the states from 525. -/
def lalrRows21 : List LalrRow := [
  ⟨[(70, 549)], [], [], none⟩,
  ⟨[], [], [(48473911697274508523994622, 103)], some 103⟩,
  ⟨[], [], [(48473911697274508523994622, 104)], some 104⟩,
  ⟨[], [], [(48473911697274508523994622, 105)], some 105⟩,
  ⟨[(83, 491)], [(167, 490), (168, 550)], [], none⟩,
  ⟨[(83, 491)], [(167, 551)], [], none⟩,
  ⟨[(83, 552)], [], [], none⟩,
  ⟨[], [], [(48473911697274508523994622, 107)], some 107⟩,
  ⟨[(1, 103), (2, 107), (3, 62), (4, 65), (5, 104), (6, 108), (7, 100), (8, 63), (10, 95), (11,
  105), (12, 109), (13, 94), (14, 92), (15, 93), (16, 101), (18, 112), (19, 102), (20, 96), (21,
  87), (22, 119), (23, 114), (24, 120), (28, 121), (30, 90), (31, 106), (32, 110), (33, 91), (34,
  111), (35, 97), (37, 89), (38, 75), (39, 115), (40, 80), (41, 64), (42, 68), (43, 76), (44,
  88), (46, 117), (47, 99), (48, 67), (49, 74), (50, 73), (51, 72), (52, 69), (53, 98), (55,
  116), (70, 59), (76, 60), (83, 77)], [(112, 70), (113, 31), (115, 66), (116, 86), (117, 118),
  (121, 48), (124, 32), (125, 55), (130, 54), (131, 79), (132, 56), (133, 49), (141, 113), (142,
  81), (143, 82), (144, 43), (146, 30), (147, 553), (150, 46), (151, 47), (170, 52), (171, 53),
  (172, 44), (173, 78), (174, 57), (176, 51), (177, 41), (179, 83), (180, 45), (184, 38), (185,
  34), (186, 42), (187, 39), (188, 36), (190, 50), (200, 85), (202, 35), (203, 33), (204, 61),
  (205, 40), (206, 58), (207, 84), (208, 71), (212, 37)], [], none⟩,
  ⟨[(57, 554)], [(161, 555)], [(75557863868850856001944, 138)], some 138⟩,
  ⟨[(59, 556), (61, 557)], [], [], none⟩,
  ⟨[(60, 558)], [], [(48473914579578270041243134, 240)], some 240⟩,
  ⟨[(71, 559)], [], [], none⟩,
  ⟨[(61, 560)], [], [], none⟩,
  ⟨[], [], [(48473911697274508523994622, 61)], some 61⟩,
  ⟨[(59, 561)], [], [], none⟩,
  ⟨[], [(148, 562), (155, 401)], [(9671409583335982990622720, 175)], some 175⟩,
  ⟨[], [], [(2882303761517117440, 178)], some 178⟩,
  ⟨[], [], [(2882303761517117440, 181)], some 181⟩,
  ⟨[], [(148, 563), (155, 401)], [(9671409583335982990622720, 175)], some 175⟩,
  ⟨[], [], [(48473911697274508523994622, 205)], some 205⟩,
  ⟨[(66, 564)], [], [], none⟩,
  ⟨[(39, 115), (71, 565)], [(179, 566)], [], none⟩,
  ⟨[], [], [(48473911697274508523994622, 74)], some 74⟩,
  ⟨[], [], [(48473911697274508523994622, 102)], some 102⟩]

/-- parse.y:199-1076: the states from 550. -/
def lalrRows22 : List LalrRow := [
  ⟨[], [], [(48473914579578270041243134, 190)], some 190⟩,
  ⟨[], [], [(48473919191264288468631038, 193)], some 193⟩,
  ⟨[], [], [(48473920344185793075478014, 195)], some 195⟩,
  ⟨[(1, 103), (2, 107), (3, 62), (4, 65), (5, 104), (6, 108), (7, 100), (8, 63), (10, 95), (11,
  105), (12, 109), (13, 94), (14, 92), (15, 93), (16, 101), (18, 112), (19, 102), (20, 96), (21,
  87), (22, 119), (23, 114), (24, 120), (28, 121), (30, 90), (31, 106), (32, 110), (33, 91), (34,
  111), (35, 97), (37, 89), (38, 75), (39, 115), (40, 80), (41, 64), (42, 68), (43, 76), (44,
  88), (46, 117), (47, 99), (48, 67), (49, 74), (50, 73), (51, 72), (52, 69), (53, 98), (55,
  116), (70, 59), (71, 567), (76, 60), (83, 77)], [(112, 70), (113, 31), (115, 66), (116, 86),
  (117, 118), (121, 48), (124, 32), (125, 55), (130, 54), (131, 79), (132, 56), (133, 49), (141,
  113), (142, 81), (143, 82), (144, 43), (146, 145), (150, 46), (151, 47), (170, 52), (171, 53),
  (172, 44), (173, 78), (174, 57), (176, 51), (177, 41), (179, 83), (180, 45), (184, 38), (185,
  34), (186, 42), (187, 39), (188, 36), (190, 50), (200, 85), (202, 35), (203, 33), (204, 61),
  (205, 40), (206, 58), (207, 84), (208, 71), (212, 37)], [], none⟩,
  ⟨[], [(162, 568)], [(75557863868850856001944, 136)], some 136⟩,
  ⟨[(3, 176), (4, 178), (7, 179), (8, 180), (22, 119), (24, 120), (41, 177), (47, 175), (76,
  182)], [(141, 181), (181, 174), (182, 173), (183, 569)], [], none⟩,
  ⟨[], [], [(48473911697274508524125694, 237)], some 237⟩,
  ⟨[(59, 571), (83, 491)], [(167, 490), (168, 489), (169, 570)], [], none⟩,
  ⟨[(83, 491)], [(167, 490), (168, 489), (169, 572)], [], none⟩,
  ⟨[], [], [(576460752303423488, 229)], some 229⟩,
  ⟨[(83, 491)], [(167, 490), (168, 489), (169, 573)], [], none⟩,
  ⟨[], [], [(48473911697274508523994622, 64)], some 64⟩,
  ⟨[(59, 574), (61, 469)], [], [], none⟩,
  ⟨[(59, 575), (61, 469)], [], [], none⟩,
  ⟨[(1, 103), (2, 107), (3, 62), (4, 65), (5, 104), (6, 108), (7, 100), (8, 63), (10, 95), (11,
  105), (12, 109), (13, 94), (14, 92), (15, 93), (16, 101), (18, 112), (19, 102), (20, 96), (21,
  87), (22, 119), (23, 114), (24, 120), (28, 121), (30, 90), (31, 106), (32, 110), (33, 91), (34,
  111), (35, 97), (37, 89), (38, 75), (39, 115), (40, 80), (41, 64), (42, 68), (43, 76), (44,
  88), (46, 117), (47, 99), (48, 67), (49, 74), (50, 73), (51, 72), (52, 69), (53, 98), (55,
  116), (70, 59), (76, 60), (83, 77)], [(112, 70), (113, 31), (115, 66), (116, 86), (117, 118),
  (121, 48), (124, 32), (125, 55), (130, 54), (131, 79), (132, 56), (133, 49), (141, 113), (142,
  81), (143, 82), (144, 43), (146, 30), (147, 576), (150, 46), (151, 47), (170, 52), (171, 53),
  (172, 44), (173, 78), (174, 57), (176, 51), (177, 41), (179, 83), (180, 45), (184, 38), (185,
  34), (186, 42), (187, 39), (188, 36), (190, 50), (200, 85), (202, 35), (203, 33), (204, 61),
  (205, 40), (206, 58), (207, 84), (208, 71), (212, 37)], [], none⟩,
  ⟨[(59, 577)], [], [], none⟩,
  ⟨[(71, 578)], [], [], none⟩,
  ⟨[(59, 579)], [], [], none⟩,
  ⟨[(3, 176), (4, 178), (7, 179), (8, 180), (22, 119), (24, 120), (41, 177), (47, 175), (76,
  182)], [(141, 181), (181, 174), (182, 173), (183, 580)], [], none⟩,
  ⟨[(3, 176), (4, 178), (7, 179), (8, 180), (22, 119), (24, 120), (41, 177), (47, 175), (59,
  581), (76, 182)], [(141, 181), (181, 174), (182, 270)], [], none⟩,
  ⟨[(59, 582)], [], [], none⟩,
  ⟨[], [], [(48473911697274508524125694, 239)], some 239⟩,
  ⟨[], [], [(48473914579578270041243134, 241)], some 241⟩,
  ⟨[(59, 583), (61, 584)], [], [], none⟩,
  ⟨[], [], [(48473911697274508523994622, 147)], some 147⟩]

/-- parse.y:199-1076: the states from 575. -/
def lalrRows23 : List LalrRow := [
  ⟨[], [], [(48473911697274508523994622, 203)], some 203⟩,
  ⟨[(1, 103), (2, 107), (3, 62), (4, 65), (5, 104), (6, 108), (7, 100), (8, 63), (10, 95), (11,
  105), (12, 109), (13, 94), (14, 92), (15, 93), (16, 101), (18, 112), (19, 102), (20, 96), (21,
  87), (22, 119), (23, 114), (24, 120), (28, 121), (30, 90), (31, 106), (32, 110), (33, 91), (34,
  111), (35, 97), (37, 89), (38, 75), (39, 115), (40, 80), (41, 64), (42, 68), (43, 76), (44,
  88), (46, 117), (47, 99), (48, 67), (49, 74), (50, 73), (51, 72), (52, 69), (53, 98), (55,
  116), (58, 585), (70, 59), (76, 60), (83, 77)], [(112, 70), (113, 31), (115, 66), (116, 86),
  (117, 118), (121, 48), (124, 32), (125, 55), (130, 54), (131, 79), (132, 56), (133, 49), (141,
  113), (142, 81), (143, 82), (144, 43), (146, 145), (150, 46), (151, 47), (170, 52), (171, 53),
  (172, 44), (173, 78), (174, 57), (176, 51), (177, 41), (179, 83), (180, 45), (184, 38), (185,
  34), (186, 42), (187, 39), (188, 36), (190, 50), (200, 85), (202, 35), (203, 33), (204, 61),
  (205, 40), (206, 58), (207, 84), (208, 71), (212, 37)], [], none⟩,
  ⟨[], [], [(38761184091394047914017792, 264)], some 264⟩,
  ⟨[(59, 586)], [], [], none⟩,
  ⟨[], [], [(48473911697274508523994622, 114)], some 114⟩,
  ⟨[(3, 176), (4, 178), (7, 179), (8, 180), (22, 119), (24, 120), (41, 177), (47, 175), (71,
  587), (76, 182)], [(141, 181), (181, 174), (182, 270)], [], none⟩,
  ⟨[], [], [(115698843664371295453592, 139)], some 139⟩,
  ⟨[], [], [(48473911697274508524125694, 238)], some 238⟩,
  ⟨[], [], [(48473911697274508523994622, 233)], some 233⟩,
  ⟨[(83, 491)], [(167, 490), (168, 489), (169, 588)], [], none⟩,
  ⟨[], [], [(48473911697274508523994622, 199)], some 199⟩,
  ⟨[], [], [(38761184091394047914017792, 265)], some 265⟩,
  ⟨[(59, 589)], [], [], none⟩,
  ⟨[(59, 590)], [], [], none⟩,
  ⟨[], [], [(115698843664371295453592, 137)], some 137⟩,
  ⟨[], [], [(48473911697274508523994622, 234)], some 234⟩]

/-- parse.y:199-1076: all states, in pieces of 25. -/
def lalrRows : List (List LalrRow) := [
  lalrRows0, lalrRows1, lalrRows2, lalrRows3, lalrRows4, lalrRows5, lalrRows6, lalrRows7,
  lalrRows8, lalrRows9, lalrRows10, lalrRows11, lalrRows12, lalrRows13, lalrRows14, lalrRows15,
  lalrRows16, lalrRows17, lalrRows18, lalrRows19, lalrRows20, lalrRows21, lalrRows22, lalrRows23]

/-- The row of a state. -/
def lalrRow (s : Nat) : Option LalrRow := (lalrRows[s / 25]?).bind (·[s % 25]?)

/-- The state in which the whole file has been read. -/
def lalrFinal : Nat := 1

/-- What the tables say. -/
inductive Action where
  | shift (state : Nat)
  | reduce (rule : Nat)
  | accept
  deriving DecidableEq

/-- bison's `yyaction`: what to do in a state with a token. -/
def lalrAction (s : Nat) (token : Nat) : Option Action :=
  if s == lalrFinal && token == Term.code .eof then some .accept else
  (lalrRow s).bind fun r =>
    match r.shifts.find? (·.1 == token) with
    | some x => some (.shift x.2)
    | none =>
      match r.reductions.find? (·.1.testBit token) with
      | some x => some (.reduce x.2)
      | none => r.default.map .reduce

/-- bison's `yygoto`: the state after a nonterminal. -/
def lalrGoto (s : Nat) (nt : Nat) : Option Nat :=
  (lalrRow s).bind fun r => (r.gotos.find? (·.1 == nt)).map (·.2)

end Lr
end Selint

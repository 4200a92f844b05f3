import Verif.Model.Float
/-!
# A sample of floats

Texts with the bits they are read as, and bits with the text they are written as; computed by
scripts/conformance.py.
-/

namespace Sdp.Conformance

example : [(c%"0", 0),
    (c%"1", 1065353216),
    (c%"0.1", 1036831949),
    (c%".5", 1056964608),
    (c%"5.", 1084227584),
    (c%"23.5", 1102839808),
    (c%"29.97", 1106231951),
    (c%"4294967297", 1333788672),
    (c%"16777217", 1266679808),
    (c%"9007199254740993", 1509949440),
    (c%"1e10", 1343554297),
    (c%"1E-10", 786163455),
    (c%"1e+3", 1148846080),
    (c%"3.4028235e38", 2139095039),
    (c%"3.4028236e38", 2139095040),
    (c%"1e39", 2139095040),
    (c%"1.7976931348623157e308", 2139095040),
    (c%"1.7976931348623159e308", 2139095040),
    (c%"1e309", 2139095040),
    (c%"1e-45", 1),
    (c%"7e-46", 0),
    (c%"8e-46", 1),
    (c%"5e-324", 0),
    (c%"2e-324", 0),
    (c%"1.1754943e-38", 8388608),
    (c%"1.1754944e-38", 8388608),
    (c%"2.2250738585072011e-308", 0),
    (c%"2.2250738585072014e-308", 0),
    (c%"00012.500", 1095237632),
    (c%"123456789012345678901234567890", 1875342472),
    (c%"0.3", 1050253722),
    (c%"0.30000000000000004", 1050253722),
    (c%"8.5", 1091043328),
    (c%"1000000000000000000000000", 1733542428),
    (c%"0.000001", 897988541),
    (c%"21250919908.414002e23", 1993444573),
    (c%"9.861168e8", 1315642315),
    (c%"5991.611097e-53", 0),
    (c%"5403692550747596.90122e-5", 1363758497),
    (c%"33870412123023.95119e10", 1720676960),
    (c%"17422815957711.993473e-32", 541962555),
    (c%"73.613984e-10", 838659980),
    (c%"28.48845e11", 1411765017),
    (c%"37959.439499e-42", 21932989),
    (c%"9353.323466e11", 1481943938),
    (c%"108061.609851e13", 1567617514),
    (c%"6247794.102163e10", 1532884827),
    (c%"577.62496e19", 1671205064),
    (c%"8328453.713451e8", 1480416763),
    (c%"44211436549912.488218e14", 1835307353),
    (c%"337508673038680.260494e41", 2139095040),
    (c%"732948.817710e-29", 420333022),
    (c%"588.314834e7", 1336890588),
    (c%"6187509738963655.764878e-3", 1421087882),
    (c%"314395342.536800e-7", 1107002411),
    (c%"793919.358671e-41", 86563093),
    (c%"706296298105961.700675e-51", 57693974),
    (c%"95950094914.367188e16", 1816554383),
    (c%"1238722067160938.880770e-49", 119842695),
    (c%"509059210.730901e25", 2004548686),
    (c%"62.766676e29", 1922986500),
    (c%"7825107365.298420e31", 2139095040),
    (c%"396627367485.986341e-1", 1360249173),
    (c%"670736660454.122783e3", 1478001155),
    (c%"27.805550e-24", 436630939),
    (c%"96778.259642e-10", 924999154),
    (c%"1419471687740.174447e-3", 1319712471),
    (c%"4890032609297.926295e-43", 220115149),
    (c%"77437676164617.291945e30", 2139095040),
    (c%"50495872375626.715887e53", 2139095040),
    (c%"4062857518941.158252e-50", 22885368),
    (c%"158647.243224e24", 1879058299),
    (c%"1619076.508520e46", 2139095040),
    (c%"275509.295625e-60", 0),
    (c%"54912.560559e-13", 834448793)].all (fun p => decide (F32.ofText p.1 = .ok ⟨p.2⟩)) = true := by decide +kernel

example : [(c%"0", 0),
    (c%"1", 4607182418800017408),
    (c%"0.1", 4591870180066957722),
    (c%".5", 4602678819172646912),
    (c%"5.", 4617315517961601024),
    (c%"23.5", 4627307879634829312),
    (c%"29.97", 4629129022734147256),
    (c%"4294967297", 4751297606876921856),
    (c%"16777217", 4715268810125344768),
    (c%"9007199254740993", 4845873199050653696),
    (c%"1e10", 4756540486875873280),
    (c%"1E-10", 4457293557087583675),
    (c%"1e+3", 4652007308841189376),
    (c%"3.4028235e38", 5183643170655547384),
    (c%"3.4028236e38", 5183643170920245180),
    (c%"1e39", 5190260616003865117),
    (c%"1.7976931348623157e308", 9218868437227405311),
    (c%"1.7976931348623159e308", 9218868437227405312),
    (c%"1e309", 9218868437227405312),
    (c%"1e-45", 3933566627244108473),
    (c%"7e-46", 3931634128487552362),
    (c%"8e-46", 3932281076808701281),
    (c%"5e-324", 1),
    (c%"2e-324", 0),
    (c%"1.1754943e-38", 4039728865361910267),
    (c%"1.1754944e-38", 4039728865939746475),
    (c%"2.2250738585072011e-308", 4503599627370495),
    (c%"2.2250738585072014e-308", 4503599627370496),
    (c%"00012.500", 4623226492472524800),
    (c%"123456789012345678901234567890", 5042042089369253694),
    (c%"0.3", 4599075939470750515),
    (c%"0.30000000000000004", 4599075939470750516),
    (c%"8.5", 4620974692658839552),
    (c%"1000000000000000000000000", 4965913770331839924),
    (c%"0.000001", 4517329193108106637),
    (c%"21250919908.414002e23", 5105447672113647206),
    (c%"9.861168e8", 4741555355643805696),
    (c%"5991.611097e-53", 3870398383238003847),
    (c%"5403692550747596.90122e-5", 4767387534030730162),
    (c%"33870412123023.95119e10", 4959006674815017917),
    (c%"17422815957711.993473e-32", 4326189197253430340),
    (c%"73.613984e-10", 4485477414200502844),
    (c%"28.48845e11", 4793160838454837248),
    (c%"37959.439499e-42", 4047000449722083161),
    (c%"9353.323466e11", 4830837859686601216),
    (c%"108061.609851e13", 4876833510457115551),
    (c%"6247794.102163e10", 4858186541305727942),
    (c%"577.62496e19", 4932446653231994499),
    (c%"8328453.713451e8", 4830017963884562016),
    (c%"44211436549912.488218e14", 5020548398723345128),
    (c%"337508673038680.260494e41", 5437540205898044663),
    (c%"732948.817710e-29", 4260889839035563965),
    (c%"588.314834e7", 4752962935402266624),
    (c%"6187509738963655.764878e-3", 4798166013494906528),
    (c%"314395342.536800e-7", 4629542659853977346),
    (c%"793919.358671e-41", 4081698472716443478),
    (c%"706296298105961.700675e-51", 4066199482443453387),
    (c%"95950094914.367188e16", 5010480474245359180),
    (c%"1238722067160938.880770e-49", 4099565323133712489),
    (c%"509059210.730901e25", 5111409147445943153),
    (c%"62.766676e29", 5067620781874388482),
    (c%"7825107365.298420e31", 5218755740247314816),
    (c%"396627367485.986341e-1", 4765503480361726592),
    (c%"670736660454.122783e3", 4828721094197434198),
    (c%"27.805550e-24", 4269639716303628962),
    (c%"96778.259642e-10", 4531830405627396441),
    (c%"1419471687740.174447e-3", 4743740503771537157),
    (c%"4890032609297.926295e-43", 4153398687015328712),
    (c%"77437676164617.291945e30", 5263519972222000073),
    (c%"50495872375626.715887e53", 5604722516106071250),
    (c%"4062857518941.158252e-50", 4047511754540023379),
    (c%"158647.243224e24", 5044037008876432183),
    (c%"1619076.508520e46", 5387891843633548586),
    (c%"275509.295625e-60", 3790629668089563381),
    (c%"54912.560559e-13", 4483216550834365727)].all (fun p => decide (F64.ofText p.1 = .ok ⟨p.2⟩)) = true := by decide +kernel

example : [(1065353216, c%"1"),
    (1, c%"0.000000000000000000000000000000000000000000001"),
    (8388607, c%"0.000000000000000000000000000000000000011754942"),
    (8388608, c%"0.000000000000000000000000000000000000011754944"),
    (8388609, c%"0.000000000000000000000000000000000000011754945"),
    (2139095039, c%"340282350000000000000000000000000000000"),
    (1036831949, c%"0.1"),
    (1266679808, c%"16777216"),
    (1593835520, c%"9223372000000000000"),
    (363742205, c%"0.00000000000000000000000007038531"),
    (1309562236, c%"596991740"),
    (1216208521, c%"259962.14"),
    (684213371, c%"0.00000000000002223416"),
    (2046762209, c%"165577680000000000000000000000000000"),
    (269490964, c%"0.000000000000000000000000000028419853"),
    (1482823831, c%"994380960000000"),
    (1845122138, c%"9684153400000000000000000000"),
    (1107009420, c%"31.452904"),
    (2040590398, c%"104455020000000000000000000000000000"),
    (1326270331, c%"2370272000"),
    (1406529762, c%"1837738800000"),
    (1452128622, c%"77913780000000"),
    (1588675649, c%"6386703000000000000"),
    (115948851, c%"0.000000000000000000000000000000000087734783"),
    (980634927, c%"0.00092812156"),
    (1931732424, c%"12985304000000000000000000000000"),
    (1870414235, c%"78069535000000000000000000000"),
    (1674971721, c%"7896688700000000000000"),
    (2044160092, c%"139807560000000000000000000000000000"),
    (1878002762, c%"148582520000000000000000000000"),
    (1461523904, c%"172716740000000"),
    (1713419474, c%"189728550000000000000000"),
    (1201026917, c%"76910.79"),
    (842627282, c%"0.000000010795889"),
    (854848018, c%"0.000000028399004"),
    (856800515, c%"0.00000003393235"),
    (846366295, c%"0.000000014116799"),
    (222344215, c%"0.00000000000000000000000000000059381343"),
    (1034062383, c%"0.07936513"),
    (1362126470, c%"47352144000"),
    (859944004, c%"0.000000045100265"),
    (133676181, c%"0.00000000000000000000000000000000037275268"),
    (409330879, c%"0.0000000000000000000000029713044"),
    (144627903, c%"0.0000000000000000000000000000000009560236"),
    (2114557575, c%"45721455000000000000000000000000000000"),
    (448315526, c%"0.000000000000000000000076411655"),
    (946239001, c%"0.00005494626"),
    (348543443, c%"0.00000000000000000000000002002832"),
    (236069245, c%"0.0000000000000000000000000000018012013"),
    (730259659, c%"0.0000000000009583665")].all (fun p => decide (F32.text ⟨p.1⟩ = p.2)) = true := by decide +kernel

example : [(4607182418800017408, c%"1"),
    (1, c%"0.000000000000000000000000000000000000000000000000000000000000000000000000000000000000000000000000000000000000000000000000000000000000000000000000000000000000000000000000000000000000000000000000000000000000000000000000000000000000000000000000000000000000000000000000000000000000000000000000000000000000000000000000000000000005"),
    (4503599627370495, c%"0.00000000000000000000000000000000000000000000000000000000000000000000000000000000000000000000000000000000000000000000000000000000000000000000000000000000000000000000000000000000000000000000000000000000000000000000000000000000000000000000000000000000000000000000000000000000000000000000000000000000000000000002225073858507201"),
    (4503599627370496, c%"0.000000000000000000000000000000000000000000000000000000000000000000000000000000000000000000000000000000000000000000000000000000000000000000000000000000000000000000000000000000000000000000000000000000000000000000000000000000000000000000000000000000000000000000000000000000000000000000000000000000000000000000022250738585072014"),
    (9218868437227405311, c%"179769313486231570000000000000000000000000000000000000000000000000000000000000000000000000000000000000000000000000000000000000000000000000000000000000000000000000000000000000000000000000000000000000000000000000000000000000000000000000000000000000000000000000000000000000000000000000000000000000000000000000000"),
    (4591870180066957722, c%"0.1"),
    (4845873199050653696, c%"9007199254740992"),
    (4629129022734147256, c%"29.97"),
    (4921056587992461136, c%"1000000000000000000000"),
    (4950912855330343670, c%"100000000000000000000000"),
    (484924410416415498, c%"0.000000000000000000000000000000000000000000000000000000000000000000000000000000000000000000000000000000000000000000000000000000000000000000000000000000000000000000000000000000000000000000000000000000000000000000000000000000000000000000000000000000000000000000000000000000000003023428228845162"),
    (2151624436190369, c%"0.000000000000000000000000000000000000000000000000000000000000000000000000000000000000000000000000000000000000000000000000000000000000000000000000000000000000000000000000000000000000000000000000000000000000000000000000000000000000000000000000000000000000000000000000000000000000000000000000000000000000000000010630437166742026"),
    (1395172776525478679, c%"0.000000000000000000000000000000000000000000000000000000000000000000000000000000000000000000000000000000000000000000000000000000000000000000000000000000000000000000000000000000000000000000000000000000000000000000000020776804690026036"),
    (935843611979798452, c%"0.000000000000000000000000000000000000000000000000000000000000000000000000000000000000000000000000000000000000000000000000000000000000000000000000000000000000000000000000000000000000000000000000000000000000000000000000000000000000000000000000000004116809388875052"),
    (3353709579181379142, c%"0.0000000000000000000000000000000000000000000000000000000000000000000000000000000000017224948104310574"),
    (235204218630038177, c%"0.00000000000000000000000000000000000000000000000000000000000000000000000000000000000000000000000000000000000000000000000000000000000000000000000000000000000000000000000000000000000000000000000000000000000000000000000000000000000000000000000000000000000000000000000000000000000000000000000000006141913241011184"),
    (8064292833642689438, c%"1267410755717044200000000000000000000000000000000000000000000000000000000000000000000000000000000000000000000000000000000000000000000000000000000000000000000000000000000000000000000000000000000000000000000000000000000000000000000000"),
    (5663786765836378909, c%"44538205962147150000000000000000000000000000000000000000000000000000000"),
    (1370136410611290443, c%"0.0000000000000000000000000000000000000000000000000000000000000000000000000000000000000000000000000000000000000000000000000000000000000000000000000000000000000000000000000000000000000000000000000000000000000000000000004465103776835727"),
    (2326667139398281864, c%"0.000000000000000000000000000000000000000000000000000000000000000000000000000000000000000000000000000000000000000000000000000000000000000000000000000000003875677857509272"),
    (3204103022042516861, c%"0.0000000000000000000000000000000000000000000000000000000000000000000000000000000000000000000001742380215257739"),
    (3358814872173213712, c%"0.0000000000000000000000000000000000000000000000000000000000000000000000000000000000037200807924623736"),
    (1133019611741158803, c%"0.00000000000000000000000000000000000000000000000000000000000000000000000000000000000000000000000000000000000000000000000000000000000000000000000000000000000000000000000000000000000000000000000000000000000000000000000000000000000000006364225597506619"),
    (7830061088632196804, c%"279716128868151080000000000000000000000000000000000000000000000000000000000000000000000000000000000000000000000000000000000000000000000000000000000000000000000000000000000000000000000000000000000000000000000000000000"),
    (9159755863830955813, c%"20566074621228127000000000000000000000000000000000000000000000000000000000000000000000000000000000000000000000000000000000000000000000000000000000000000000000000000000000000000000000000000000000000000000000000000000000000000000000000000000000000000000000000000000000000000000000000000000000000000000000000"),
    (4297994165516671908, c%"0.0000000000000000000022809181915434162"),
    (4462587042558848105, c%"0.00000000022041807050622343"),
    (792146241652100543, c%"0.0000000000000000000000000000000000000000000000000000000000000000000000000000000000000000000000000000000000000000000000000000000000000000000000000000000000000000000000000000000000000000000000000000000000000000000000000000000000000000000000000000000000000010079493998498278"),
    (942514394584375899, c%"0.000000000000000000000000000000000000000000000000000000000000000000000000000000000000000000000000000000000000000000000000000000000000000000000000000000000000000000000000000000000000000000000000000000000000000000000000000000000000000000000000000011718545059710692"),
    (3160257826042585430, c%"0.0000000000000000000000000000000000000000000000000000000000000000000000000000000000000000000000002011014598835585"),
    (2441951337752537190, c%"0.00000000000000000000000000000000000000000000000000000000000000000000000000000000000000000000000000000000000000000000000000000000000000000000000019574286937525832"),
    (7644841527495554979, c%"117245302477461560000000000000000000000000000000000000000000000000000000000000000000000000000000000000000000000000000000000000000000000000000000000000000000000000000000000000000000000000000000000000000000"),
    (1489008363553071607, c%"0.000000000000000000000000000000000000000000000000000000000000000000000000000000000000000000000000000000000000000000000000000000000000000000000000000000000000000000000000000000000000000000000000000000000000000039573701562634375"),
    (213020454429818819, c%"0.0000000000000000000000000000000000000000000000000000000000000000000000000000000000000000000000000000000000000000000000000000000000000000000000000000000000000000000000000000000000000000000000000000000000000000000000000000000000000000000000000000000000000000000000000000000000000000000000000000020355502620391688"),
    (8771293714418563191, c%"229516868325302420000000000000000000000000000000000000000000000000000000000000000000000000000000000000000000000000000000000000000000000000000000000000000000000000000000000000000000000000000000000000000000000000000000000000000000000000000000000000000000000000000000000000000000000"),
    (4872314516462347534, c%"539322809741558660"),
    (1352169733421256502, c%"0.00000000000000000000000000000000000000000000000000000000000000000000000000000000000000000000000000000000000000000000000000000000000000000000000000000000000000000000000000000000000000000000000000000000000000000000000002814703932244698"),
    (5009881325690701030, c%"877154598817194400000000000"),
    (249422936786957636, c%"0.0000000000000000000000000000000000000000000000000000000000000000000000000000000000000000000000000000000000000000000000000000000000000000000000000000000000000000000000000000000000000000000000000000000000000000000000000000000000000000000000000000000000000000000000000000000000000000000000000005543599661732384"),
    (4870949841310951467, c%"451983600052210370")].all (fun p => decide (F64.text ⟨p.1⟩ = p.2)) = true := by decide +kernel

example : [c%"", c%"-", c%"+", c%".", c%"e5", c%"1e", c%"1e+", c%"1.2.3", c%"1 ", c%" 1", c%"0x1", c%"1,5", c%"in", c%"infinit",
    c%"--1", c%"+-1", c%"1e1.5", c%"na", c%"1_0"].all
    (fun t => decide (F32.ofText t = .error (if t = [] then .empty else .invalid))) = true := by decide +kernel

example : F64.ofText c%"-InFiNiTy" = .ok ⟨0xfff0000000000000⟩ ∧ F64.ofText c%"+nAn" = .ok ⟨0x7ff8000000000000⟩ ∧
    F32.ofText c%"-0" = .ok ⟨0x80000000⟩ ∧ F32.text ⟨0x80000000⟩ = c%"-0" ∧ F64.text ⟨0xfff0000000000000⟩ = c%"-inf" ∧
    F64.text ⟨0xfff8000000000000⟩ = c%"NaN" := by decide +kernel

end Sdp.Conformance

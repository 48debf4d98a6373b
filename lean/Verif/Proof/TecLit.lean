import Verif.Model.Tec.Basic
/-!
# Lengths of the literals (generated)
-/
namespace Verif.Tec

theorem len_0 : (lit ", ").length = 2 := rfl
theorem len_1 : (lit " ] ,").length = 4 := rfl
theorem len_2 : (lit "\t\t\"").length = 3 := rfl
theorem len_3 : (lit "\" : \"").length = 5 := rfl
theorem len_4 : (lit "\"").length = 1 := rfl
theorem len_5 : (lit ",").length = 1 := rfl
theorem len_6 : (lit "\t\"Auxiliary\" : {").length = 16 := rfl
theorem len_7 : (lit "\t} ,").length = 4 := rfl
theorem len_8 : (lit "\t\t{ \"type\":").length = 11 := rfl
theorem len_9 : (lit ", \"size_i\":").length = 11 := rfl
theorem len_10 : (lit ", \"file_pt\":").length = 12 := rfl
theorem len_11 : (lit ", \"min\":").length = 8 := rfl
theorem len_12 : (lit ", \"max\":").length = 8 := rfl
theorem len_13 : (lit " }").length = 2 := rfl
theorem len_14 : (lit "\t\"ZoneName\" : \"").length = 15 := rfl
theorem len_15 : (lit "\" ,").length = 3 := rfl
theorem len_16 : (lit "\t\"StrandId\" : ").length = 14 := rfl
theorem len_17 : (lit " ,").length = 2 := rfl
theorem len_18 : (lit "\t\"SolutionTime\" : ").length = 18 := rfl
theorem len_19 : (lit "\t\"Org_Dim\" : ").length = 13 := rfl
theorem len_20 : (lit "\t\"Real_Dim\" : ").length = 14 := rfl
theorem len_21 : (lit "{").length = 1 := rfl
theorem len_22 : (lit "\t\"Data_type_comment\" : \"1=Float, 2=Double, 3=LongInt, 4=ShortInt, 5=Byte, 6=Bit\" ,").length = 82 := rfl
theorem len_23 : (lit "\t\"Data\" : [").length = 11 := rfl
theorem len_24 : (lit "\t]").length = 2 := rfl
theorem len_25 : (lit "}").length = 1 := rfl
theorem len_26 : (lit "</I> <J>").length = 8 := rfl
theorem len_27 : (lit "</J> <K>").length = 8 := rfl
theorem len_28 : (lit "\t\t<").length = 3 := rfl
theorem len_29 : (lit ">").length = 1 := rfl
theorem len_30 : (lit "</").length = 2 := rfl
theorem len_31 : (lit "\t<Auxiliary>").length = 12 := rfl
theorem len_32 : (lit "\t</Auxiliary>").length = 13 := rfl
theorem len_33 : (lit "\t\t<Data_").length = 8 := rfl
theorem len_34 : (lit " type=\"").length = 7 := rfl
theorem len_35 : (lit "\" size_i=\"").length = 10 := rfl
theorem len_36 : (lit "\" file_pt=\"").length = 11 := rfl
theorem len_37 : (lit "\" min=\"").length = 7 := rfl
theorem len_38 : (lit "\" max=\"").length = 7 := rfl
theorem len_39 : (lit "\"/>").length = 3 := rfl
theorem len_40 : (lit "<Zone ZoneName=\"").length = 16 := rfl
theorem len_41 : (lit "\">").length = 2 := rfl
theorem len_42 : (lit "\t<ZoneName>").length = 11 := rfl
theorem len_43 : (lit "</ZoneName>").length = 11 := rfl
theorem len_44 : (lit "\t<StrandId>").length = 11 := rfl
theorem len_45 : (lit "</StrandId>").length = 11 := rfl
theorem len_46 : (lit "\t<SolutionTime>").length = 15 := rfl
theorem len_47 : (lit "</SolutionTime>").length = 15 := rfl
theorem len_48 : (lit "\t<Org_Dim>").length = 10 := rfl
theorem len_49 : (lit "</Org_Dim>").length = 10 := rfl
theorem len_50 : (lit "\t<Real_Dim>").length = 11 := rfl
theorem len_51 : (lit "</Real_Dim>").length = 11 := rfl
theorem len_52 : (lit "\t<!--1=Float, 2=Double, 3=LongInt, 4=ShortInt, 5=Byte, 6=Bit-->").length = 63 := rfl
theorem len_53 : (lit "\t<Datas>").length = 8 := rfl
theorem len_54 : (lit "\t</Datas>").length = 9 := rfl
theorem len_55 : (lit "</Zone>").length = 7 := rfl
theorem len_56 : (lit "\t\"Variables\" : [ ").length = 17 := rfl
theorem len_57 : (lit "#ZONE#").length = 6 := rfl
theorem len_58 : (lit "\t\t,").length = 3 := rfl
theorem len_59 : (lit "\t\"FileName\" : \"").length = 15 := rfl
theorem len_60 : (lit ".plt").length = 4 := rfl
theorem len_61 : (lit "\t\"FilePath\" : \"").length = 15 := rfl
theorem len_62 : (lit "\t\"Time\" : \"").length = 11 := rfl
theorem len_63 : (lit "\t\"UsingTime\" : ").length = 15 := rfl
theorem len_64 : (lit "\t\"Title\" : \"").length = 12 := rfl
theorem len_65 : (lit "\t\"FileType\" : ").length = 14 := rfl
theorem len_66 : (lit "\t\"FileType_comment\" : \"0 = FULL, 1 = GRID, 2 = SOLUTION\" ,").length = 58 := rfl
theorem len_67 : (lit "\t\"Zones\" : [").length = 12 := rfl
theorem len_68 : (lit " <").length = 2 := rfl
theorem len_69 : (lit " i=\"").length = 4 := rfl
theorem len_70 : (lit "\t<Variables>").length = 12 := rfl
theorem len_71 : (lit " </Variables>").length = 13 := rfl
theorem len_72 : (lit "<File FileName=\"").length = 16 := rfl
theorem len_73 : (lit "\t<FileName>").length = 11 := rfl
theorem len_74 : (lit "</FileName>").length = 11 := rfl
theorem len_75 : (lit "\t<FilePath>").length = 11 := rfl
theorem len_76 : (lit "</FilePath>").length = 11 := rfl
theorem len_77 : (lit "\t<Time>").length = 7 := rfl
theorem len_78 : (lit "</Time>").length = 7 := rfl
theorem len_79 : (lit "\t<UsingTime>").length = 12 := rfl
theorem len_80 : (lit "</UsingTime>").length = 12 := rfl
theorem len_81 : (lit "\t<Title>").length = 8 := rfl
theorem len_82 : (lit "</Title>").length = 8 := rfl
theorem len_83 : (lit "\t<!--0 = FULL, 1 = GRID, 2 = SOLUTION-->").length = 40 := rfl
theorem len_84 : (lit "\t<FileType>").length = 11 := rfl
theorem len_85 : (lit "</FileType>").length = 11 := rfl
theorem len_86 : (lit "\t<Zones>").length = 8 := rfl
theorem len_87 : (lit "\t</Zones>").length = 9 := rfl
theorem len_88 : (lit "</File>").length = 7 := rfl
theorem len_89 : (lit "\n").length = 1 := rfl
theorem len_90 : (lit "\t").length = 1 := rfl
theorem len_91 : (lit "can not open file ").length = 18 := rfl
theorem len_92 : (lit "/").length = 1 := rfl
theorem len_93 : (lit ".txt").length = 4 := rfl
theorem len_94 : (lit ".json").length = 5 := rfl
theorem len_95 : (lit ".xml").length = 4 := rfl
theorem len_96 : (lit "<?xml version=\"1.0\" encoding=\"UTF-8\"?>\n").length = 39 := rfl
theorem len_97 : (lit "./Zone_").length = 7 := rfl
theorem len_98 : (lit "can not find data [").length = 19 := rfl
theorem len_99 : (lit "] in auxiliary data of file [").length = 29 := rfl
theorem len_100 : (lit "]").length = 1 := rfl
theorem len_101 : (lit "brief").length = 5 := rfl
theorem len_102 : (lit "0100111").length = 7 := rfl
theorem len_103 : (lit "full").length = 4 := rfl
theorem len_104 : (lit "1111111").length = 7 := rfl
theorem len_105 : (lit "simple").length = 6 := rfl
theorem len_106 : (lit "0100001").length = 7 := rfl
theorem len_107 : (lit "none").length = 4 := rfl
theorem len_108 : (lit "0000000").length = 7 := rfl
theorem len_109 : (lit "File(").length = 5 := rfl
theorem len_110 : (lit "): echo code wrong").length = 18 := rfl
theorem len_111 : (lit "leave").length = 5 := rfl
theorem len_112 : (lit ").").length = 2 := rfl
theorem len_113 : (lit "): Variables is empty").length = 21 := rfl
theorem len_114 : (lit "): Zones is empty").length = 17 := rfl
theorem len_115 : (lit "#!TDV112").length = 8 := rfl
theorem len_116 : (lit "     VAR:").length = 9 := rfl
theorem len_117 : (lit "--   write zone ").length = 16 := rfl
theorem len_118 : (lit ": ").length = 2 := rfl
theorem len_119 : (lit "   --").length = 5 := rfl
theorem len_120 : (lit "[").length = 1 := rfl
theorem len_121 : (lit "] ").length = 2 := rfl
theorem len_122 : (lit "#### creat file ").length = 16 := rfl
theorem len_123 : (lit ".plt ####\n").length = 10 := rfl
theorem len_124 : (lit " ####").length = 5 := rfl
theorem len_125 : (lit "-------------------------------------\n").length = 38 := rfl
theorem len_126 : (lit "-------------------------------------").length = 37 := rfl
theorem len_127 : (lit "     file size: ").length = 16 := rfl
theorem len_128 : (lit " MB").length = 3 := rfl
theorem len_129 : (lit "     using time : ").length = 18 := rfl
theorem len_130 : (lit " s").length = 2 := rfl
theorem len_131 : (lit "000001001").length = 9 := rfl
theorem len_132 : (lit "111111111").length = 9 := rfl
theorem len_133 : (lit "000000001").length = 9 := rfl
theorem len_134 : (lit "000000000").length = 9 := rfl
theorem len_135 : (lit "Zone(").length = 5 := rfl
theorem len_136 : (lit "] in auxiliary data of zone [").length = 29 := rfl
theorem len_137 : (lit "): ").length = 3 := rfl
theorem len_138 : (lit "Max connot be zero").length = 18 := rfl
theorem len_139 : (lit "Skip must be positive").length = 21 := rfl
theorem len_140 : (lit "): sum of ").length = 10 := rfl
theorem len_141 : (lit "Begin and ").length = 10 := rfl
theorem len_142 : (lit "End is not smaller than ").length = 24 := rfl
theorem len_143 : (lit "Max").length = 3 := rfl
theorem len_144 : (lit "maybe out of memory: std::bad_alloc").length = 35 := rfl
theorem len_145 : (lit ").Variable(").length = 11 := rfl
theorem len_146 : (lit "): Data is unset").length = 16 := rfl
theorem len_147 : (lit "): Data is empty").length = 16 := rfl
theorem len_148 : (lit "): the size of Data is not equal to the size of tec_file.Variables").length = 66 := rfl
theorem len_149 : (lit " ").length = 1 := rfl
theorem len_150 : (lit "     Dim = ").length = 11 := rfl
theorem len_151 : (lit "   Real_Max = [").length = 15 := rfl
theorem len_152 : (lit " ]\n").length = 3 := rfl
theorem len_153 : (lit " ]").length = 2 := rfl
theorem len_154 : (lit "     Org_Max = [").length = 16 := rfl
theorem len_155 : (lit "     Skip = [").length = 13 := rfl
theorem len_156 : (lit "     Begin = [").length = 14 := rfl
theorem len_157 : (lit "   End = [").length = 10 := rfl
theorem len_158 : (lit " End = [").length = 8 := rfl
theorem len_159 : (lit "     StrandId = ").length = 16 := rfl
theorem len_160 : (lit " SolutionTime = ").length = 16 := rfl
theorem len_161 : (lit "     write variables:").length = 21 := rfl
theorem len_162 : (lit "     zone size: ").length = 16 := rfl
theorem len_163 : (lit "MB").length = 2 := rfl

/-- lengths of the literals -/
macro "lits" loc:(Lean.Parser.Tactic.location)? : tactic => `(tactic| simp only [List.length_append, List.length_cons, List.length_nil, len_0, len_1, len_2, len_3, len_4, len_5, len_6, len_7, len_8, len_9, len_10, len_11, len_12, len_13, len_14, len_15, len_16, len_17, len_18, len_19, len_20, len_21, len_22, len_23, len_24, len_25, len_26, len_27, len_28, len_29, len_30, len_31, len_32, len_33, len_34, len_35, len_36, len_37, len_38, len_39, len_40, len_41, len_42, len_43, len_44, len_45, len_46, len_47, len_48, len_49, len_50, len_51, len_52, len_53, len_54, len_55, len_56, len_57, len_58, len_59, len_60, len_61, len_62, len_63, len_64, len_65, len_66, len_67, len_68, len_69, len_70, len_71, len_72, len_73, len_74, len_75, len_76, len_77, len_78, len_79, len_80, len_81, len_82, len_83, len_84, len_85, len_86, len_87, len_88, len_89, len_90, len_91, len_92, len_93, len_94, len_95, len_96, len_97, len_98, len_99, len_100, len_101, len_102, len_103, len_104, len_105, len_106, len_107, len_108, len_109, len_110, len_111, len_112, len_113, len_114, len_115, len_116, len_117, len_118, len_119, len_120, len_121, len_122, len_123, len_124, len_125, len_126, len_127, len_128, len_129, len_130, len_131, len_132, len_133, len_134, len_135, len_136, len_137, len_138, len_139, len_140, len_141, len_142, len_143, len_144, len_145, len_146, len_147, len_148, len_149, len_150, len_151, len_152, len_153, len_154, len_155, len_156, len_157, len_158, len_159, len_160, len_161, len_162, len_163] $[$loc]?)

end Verif.Tec

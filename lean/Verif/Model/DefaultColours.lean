import Verif.Base.Lit
import Verif.Base.Map
/-!
# The built-in TopSky colours

`DEFAULT_COLOURS`, `/repo/src/topsky/mod.rs` 39-208, transcribed entry by entry: the first colour
applies without, the second with the COOPANS setting.
-/

namespace Verif.Colours

/-- Red, green and blue. -/
abbrev Rgb := Fin 256 × Fin 256 × Fin 256

/-- `DEFAULT_COLOURS`, topsky/mod.rs 39-208 -/
def defaultColours : Map Str (Option Rgb × Option Rgb) := [
  (c!"ACF_Via_CFL", some (82, 190, 115), some (82, 190, 115)),
  (c!"Active_Map", some (70, 90, 135), some (198, 174, 58)),
  (c!"Active_Map_Type_1", some (1, 1, 1), some (87, 87, 164)),
  (c!"Active_Map_Type_2", some (90, 90, 90), some (80, 162, 74)),
  (c!"Active_Map_Type_3", some (220, 205, 121), some (179, 180, 180)),
  (c!"Active_Map_Type_4", some (121, 66, 133), some (200, 53, 18)),
  (c!"Active_Map_Type_5", some (51, 102, 152), some (198, 174, 58)),
  (c!"Active_Map_Type_6", some (114, 69, 58), some (114, 69, 58)),
  (c!"Active_Map_Type_7", some (138, 20, 12), some (138, 20, 12)),
  (c!"Active_Map_Type_8", some (195, 186, 69), some (195, 186, 69)),
  (c!"Active_Map_Type_9", some (220, 125, 25), some (220, 125, 25)),
  (c!"Active_Map_Type_10", some (255, 255, 255), some (255, 255, 255)),
  (c!"Active_Map_Type_11", some (51, 134, 49), some (51, 134, 49)),
  (c!"Active_Map_Type_12", some (41, 102, 255), some (41, 102, 255)),
  (c!"Active_Map_Type_13", some (100, 160, 100), some (100, 160, 100)),
  (c!"Active_Map_Type_14", some (141, 184, 236), some (141, 184, 236)),
  (c!"Active_Map_Type_15", some (227, 213, 29), some (227, 213, 29)),
  (c!"Active_Map_Type_16", some (60, 60, 60), some (60, 60, 60)),
  (c!"Active_Map_Type_17", some (155, 155, 155), some (155, 155, 155)),
  (c!"Active_Map_Type_18", some (183, 26, 19), some (183, 26, 19)),
  (c!"Active_Map_Type_19", some (120, 91, 65), some (120, 91, 65)),
  (c!"Active_Map_Type_20", some (138, 69, 58), some (138, 69, 58)),
  (c!"Active_RD_Infill_Map", some (165, 160, 160), some (90, 90, 90)),
  (c!"Active_RD_Map", some (124, 20, 13), some (150, 41, 43)),
  (c!"Active_Sector", some (153, 154, 149), some (52, 58, 62)),
  (c!"Active_Text_Map", some (210, 211, 211), some (190, 190, 190)),
  (c!"AIW_Intrusion", some (255, 152, 0), some (255, 152, 0)),
  (c!"Arm", some (97, 97, 97), some (97, 97, 97)),
  (c!"Assumed", some (1, 0, 1), some (220, 220, 220)),
  (c!"Background", some (162, 163, 156), some (74, 80, 85)),
  (c!"Border", some (51, 51, 52), some (51, 51, 52)),
  (c!"BottomShadow", some (66, 66, 66), some (70, 70, 70)),
  (c!"CARD_Mark_All", none, some (255, 125, 125)),
  (c!"CARD_Mark_Own", none, some (255, 124, 125)),
  (c!"CARD_Min_Sep", some (209, 207, 211), some (61, 61, 61)),
  (c!"CARD_Reminder", none, some (170, 231, 198)),
  (c!"CARD_Symbol_Fg", some (0, 1, 0), some (9, 10, 11)),
  (c!"CARD_Time_Vector", some (95, 95, 95), some (171, 231, 197)),
  (c!"COL_Above_Threshold", none, some (239, 225, 41)),
  (c!"COL_Under_Threshold", none, some (220, 220, 221)),
  (c!"Concerned", some (124, 1, 124), some (111, 153, 110)),
  (c!"Conflict_Ack", some (110, 98, 98), some (135, 127, 118)),
  (c!"Conflict_Ack_FL", some (110, 98, 98), some (135, 127, 117)),
  (c!"Coordination", some (0, 0, 185), some (150, 215, 150)),
  (c!"CPDLC_Controller_Late", some (235, 225, 108), some (170, 78, 39)),
  (c!"CPDLC_Discarded", some (141, 141, 141), some (128, 128, 128)),
  (c!"CPDLC_DM_Request", some (205, 252, 254), some (30, 250, 250)),
  (c!"CPDLC_Failed", some (169, 8, 9), some (170, 78, 39)),
  (c!"CPDLC_Pilot_Late", some (246, 164, 96), some (170, 78, 40)),
  (c!"CPDLC_Standby", some (170, 248, 87), some (170, 78, 39)),
  (c!"CPDLC_UM_Clearance", some (2, 2, 2), some (30, 251, 250)),
  (c!"CPDLC_Unable", some (247, 164, 96), some (170, 77, 39)),
  (c!"CPDLC_Urgency", some (237, 229, 108), some (226, 25, 25)),
  (c!"Datalink_Logged_On", some (120, 120, 120), some (145, 145, 145)),
  (c!"Deselected", some (127, 127, 127), some (95, 95, 96)),
  (c!"East_NAT_Map", some (180, 180, 1), some (180, 180, 1)),
  (c!"Field_Highlight", some (209, 207, 211), some (72, 72, 73)),
  (c!"Flight_Highlight", some (190, 190, 185), some (36, 41, 45)),
  (c!"Flight_Leg", some (205, 252, 255), some (170, 231, 197)),
  (c!"Foreground", some (0, 1, 0), some (200, 200, 200)),
  (c!"FPLSEP_Tool_1", some (255, 170, 46), none),
  (c!"FPLSEP_Tool_2", some (204, 122, 0), none),
  (c!"FPLSEP_Tool_3", some (255, 195, 75), none),
  (c!"FPLSEP_Tool_4", some (223, 143, 1), none),
  (c!"FPLSEP_Tool_5", some (170, 102, 0), none),
  (c!"Freq_Indicator", some (209, 207, 211), some (114, 136, 255)),
  (c!"Global_Menu_Highlight", some (211, 211, 211), some (1, 165, 219)),
  (c!"Heading_Vector", some (200, 200, 200), some (170, 232, 197)),
  (c!"Info_Coord", some (244, 164, 96), some (1, 255, 255)),
  (c!"Information", some (169, 249, 86), some (40, 210, 40)),
  (c!"Information_FL", some (0, 200, 1), some (41, 245, 41)),
  (c!"Informed", some (25, 109, 25), some (175, 125, 175)),
  (c!"Informed_2", some (25, 109, 25), some (104, 163, 195)),
  (c!"Informed_3", some (25, 109, 25), some (147, 124, 108)),
  (c!"LatLong_Info", none, some (169, 231, 197)),
  (c!"Map_1", some (121, 66, 133), some (80, 95, 95)),
  (c!"Map_2", some (115, 115, 112), some (44, 44, 44)),
  (c!"Map_3", some (213, 241, 155), some (100, 108, 111)),
  (c!"Map_4", some (164, 164, 157), some (52, 58, 62)),
  (c!"Map_Auto_Label", some (115, 115, 112), some (159, 159, 160)),
  (c!"Map_Auto_Symbol", some (115, 115, 112), some (159, 159, 160)),
  (c!"Map_Border", some (117, 117, 117), some (134, 134, 135)),
  (c!"Map_Hotspot", some (72, 72, 70), some (87, 139, 200)),
  (c!"Map_Info", some (217, 217, 216), some (150, 150, 150)),
  (c!"Map_Land", some (133, 133, 138), some (140, 140, 0)),
  (c!"Map_Symbol", some (55, 55, 55), some (110, 130, 140)),
  (c!"MQDM", none, some (155, 140, 115)),
  (c!"Negotiation_In", none, some (220, 125, 175)),
  (c!"Negotiation_Out", none, some (220, 125, 175)),
  (c!"Normal_Load", some (1, 50, 1), some (75, 75, 78)),
  (c!"Oceanic_Level_Highlight", some (240, 225, 42), some (240, 225, 41)),
  (c!"Overflown", some (169, 249, 86), some (82, 105, 146)),
  (c!"Overload", some (255, 128, 1), some (224, 26, 25)),
  (c!"Potential", some (41, 40, 216), some (41, 40, 216)),
  (c!"Potential_FL", some (40, 41, 216), some (40, 41, 216)),
  (c!"Preactive_Map", some (116, 115, 112), some (154, 138, 128)),
  (c!"Preactive_Text_Map", some (210, 211, 212), some (155, 147, 138)),
  (c!"Predisplay_Map", some (190, 190, 190), some (175, 130, 130)),
  (c!"Proposition_Accepted", some (255, 255, 0), some (255, 255, 0)),
  (c!"Proposition_In", some (254, 255, 255), some (220, 125, 175)),
  (c!"Proposition_Out", some (254, 255, 255), some (220, 125, 175)),
  (c!"QDM", some (200, 200, 200), some (215, 190, 163)),
  (c!"Radar_Win_Bg", some (164, 164, 157), some (67, 73, 76)),
  (c!"Raw_Video1", some (55, 85, 115), some (55, 85, 115)),
  (c!"Raw_Video2", some (50, 80, 110), some (50, 80, 110)),
  (c!"Raw_Video3", some (45, 75, 105), some (45, 75, 105)),
  (c!"Raw_Video4", some (40, 70, 100), some (40, 70, 100)),
  (c!"Raw_Video5", some (35, 65, 95), some (35, 65, 95)),
  (c!"Raw_Video6", some (30, 60, 90), some (30, 60, 90)),
  (c!"Raw_Video7", some (25, 55, 85), some (25, 55, 85)),
  (c!"Redundant", some (156, 96, 59), some (185, 140, 89)),
  (c!"Reminder", none, some (165, 145, 225)),
  (c!"Runway", some (200, 200, 160), some (116, 200, 71)),
  (c!"Rwy_App_Line_Inuse", some (220, 220, 220), some (82, 190, 115)),
  (c!"Rwy_App_Line_Not_Inuse", some (220, 205, 121), some (135, 135, 70)),
  (c!"Rwy_Locked", some (124, 1, 124), some (41, 210, 41)),
  (c!"Select", some (97, 97, 97), some (151, 215, 150)),
  (c!"Selected", some (210, 210, 210), some (61, 121, 148)),
  (c!"Selected_Group", some (226, 210, 210), none),
  (c!"Selected_Period", some (220, 40, 70), some (255, 255, 41)),
  (c!"SEP_Tool_1", some (205, 252, 255), some (153, 217, 234)),
  (c!"SEP_Tool_2", some (25, 210, 230), some (255, 153, 184)),
  (c!"SEP_Tool_3", some (120, 245, 250), some (255, 209, 143)),
  (c!"SEP_Tool_4", some (185, 240, 244), some (197, 64, 212)),
  (c!"SEP_Tool_5", some (25, 180, 210), some (140, 140, 255)),
  (c!"SEP_Tool_6", none, some (95, 170, 140)),
  (c!"SEP_Tool_7", none, some (185, 130, 85)),
  (c!"SEP_Vert", none, some (160, 150, 135)),
  (c!"Sid_Star_Allocation", some (124, 1, 124), some (15, 185, 15)),
  (c!"SMW_Highlight", some (255, 255, 255), some (253, 255, 255)),
  (c!"SMW_Level_Band", some (169, 249, 86), some (24, 209, 114)),
  (c!"SMW_Overflight", some (236, 228, 108), some (254, 152, 1)),
  (c!"SMW_Overlap", some (168, 7, 8), some (224, 25, 25)),
  (c!"SMW_Overlap_Box", some (0, 1, 0), some (207, 207, 207)),
  (c!"SMW_Overshoot", some (236, 228, 108), some (239, 224, 40)),
  (c!"Standard_Line_RDF", some (91, 134, 76), some (91, 134, 76)),
  (c!"Standard_RDF", some (11, 12, 19), some (11, 12, 19)),
  (c!"Suite_Highlight", some (236, 228, 108), some (0, 220, 255)),
  (c!"System_Calculated_TOC", none, some (170, 230, 197)),
  (c!"System_Calculated_TOD", none, some (170, 231, 197)),
  (c!"Temp_Track_Highlight", some (0, 164, 220), some (0, 164, 220)),
  (c!"Text_Notes", some (0, 0, 0), some (255, 0, 0)),
  (c!"TopShadow", some (130, 130, 130), some (155, 158, 159)),
  (c!"Track_Default", some (188, 188, 188), some (210, 210, 210)),
  (c!"Track_Highlight", some (255, 255, 255), some (0, 165, 219)),
  (c!"Trough", some (97, 97, 97), some (97, 99, 97)),
  (c!"TSA_Active", some (220, 205, 120), some (93, 138, 195)),
  (c!"TSA_Border_Highlight", some (255, 254, 255), some (255, 254, 255)),
  (c!"TSA_Filter", some (255, 253, 255), none),
  (c!"TSA_Preactive", some (80, 80, 80), some (132, 142, 139)),
  (c!"Unconcerned", some (110, 98, 98), some (135, 128, 118)),
  (c!"Unknown", some (237, 228, 108), some (239, 224, 42)),
  (c!"Urgency", some (236, 32, 0), some (225, 25, 26)),
  (c!"Urgency_FL", some (166, 11, 1), some (225, 25, 25)),
  (c!"VAW_Profile", some (130, 204, 240), some (152, 202, 172)),
  (c!"VAW_Sector_Limits", some (190, 190, 185), some (145, 95, 30)),
  (c!"VAW_Track_Position", some (190, 190, 185), some (219, 219, 219)),
  (c!"VFR", some (110, 1, 10), some (110, 1, 10)),
  (c!"Warning", some (236, 228, 108), some (240, 225, 41)),
  (c!"Warning_FL", some (235, 228, 108), some (240, 226, 41)),
  (c!"Weather_Map", some (99, 99, 98), some (0, 0, 86)),
  (c!"West_NAT_Map", some (40, 140, 255), some (40, 140, 255)),
  (c!"WM_Active_Fg", some (230, 230, 231), some (255, 254, 254)),
  (c!"WM_Bg", some (147, 147, 145), some (100, 100, 105)),
  (c!"WM_Border", some (50, 50, 50), some (88, 95, 99)),
  (c!"WM_Fg", some (1, 1, 1), some (180, 184, 181)),
  (c!"WM_Frame", some (1, 1, 0), some (88, 95, 99))]

end Verif.Colours

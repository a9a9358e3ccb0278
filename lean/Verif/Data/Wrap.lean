import Verif.Model.Tables

/-!
`/repo/openap/data/wrap`.
Generated by `tools/gen_data.py`; do not edit.
-/

namespace Verif.Data
open Verif.Tables

def wrap0 : List (Str × List WrapRow) := [
  /- a319 -/ ([97, 51, 49, 57], [
    /- to_v_lof -/ ⟨[116, 111, 95, 118, 95, 108, 111, 102], 827000, 725000, 929000⟩,
    /- to_d_tof -/ ⟨[116, 111, 95, 100, 95, 116, 111, 102], 15100, 10600, 24100⟩,
    /- to_acc_tof -/ ⟨[116, 111, 95, 97, 99, 99, 95, 116, 111, 102], 18400, 13800, 22900⟩,
    /- ic_va_avg -/ ⟨[105, 99, 95, 118, 97, 95, 97, 118, 103], 800000, 730000, 870000⟩,
    /- ic_vs_avg -/ ⟨[105, 99, 95, 118, 115, 95, 97, 118, 103], 122700, 95200, 150400⟩,
    /- cl_d_range -/ ⟨[99, 108, 95, 100, 95, 114, 97, 110, 103, 101], 2060000, 1570000, 3480000⟩,
    /- cl_v_cas_const -/ ⟨[99, 108, 95, 118, 95, 99, 97, 115, 95, 99, 111, 110, 115, 116], 1490000, 1400000, 1590000⟩,
    /- cl_v_mach_const -/ ⟨[99, 108, 95, 118, 95, 109, 97, 99, 104, 95, 99, 111, 110, 115, 116], 7700, 7400, 8000⟩,
    /- cl_h_cas_const -/ ⟨[99, 108, 95, 104, 95, 99, 97, 115, 95, 99, 111, 110, 115, 116], 32000, 21000, 60000⟩,
    /- cl_h_mach_const -/ ⟨[99, 108, 95, 104, 95, 109, 97, 99, 104, 95, 99, 111, 110, 115, 116], 89000, 80000, 98000⟩,
    /- cl_vs_avg_pre_cas -/ ⟨[99, 108, 95, 118, 115, 95, 97, 118, 103, 95, 112, 114, 101, 95, 99, 97, 115], 111000, 84100, 138000⟩,
    /- cl_vs_avg_cas_const -/ ⟨[99, 108, 95, 118, 115, 95, 97, 118, 103, 95, 99, 97, 115, 95, 99, 111, 110, 115, 116], 101500, 76300, 126700⟩,
    /- cl_vs_avg_mach_const -/ ⟨[99, 108, 95, 118, 115, 95, 97, 118, 103, 95, 109, 97, 99, 104, 95, 99, 111, 110, 115, 116], 60700, 39900, 81600⟩,
    /- cr_d_range -/ ⟨[99, 114, 95, 100, 95, 114, 97, 110, 103, 101], 2990000, 1820000, 40190000⟩,
    /- cr_v_cas_mean -/ ⟨[99, 114, 95, 118, 95, 99, 97, 115, 95, 109, 101, 97, 110], 1250000, 1190000, 1390000⟩,
    /- cr_v_cas_max -/ ⟨[99, 114, 95, 118, 95, 99, 97, 115, 95, 109, 97, 120], 1280000, 1210000, 1480000⟩,
    /- cr_v_mach_mean -/ ⟨[99, 114, 95, 118, 95, 109, 97, 99, 104, 95, 109, 101, 97, 110], 7700, 7400, 8000⟩,
    /- cr_v_mach_max -/ ⟨[99, 114, 95, 118, 95, 109, 97, 99, 104, 95, 109, 97, 120], 7900, 7500, 8200⟩,
    /- cr_h_init -/ ⟨[99, 114, 95, 104, 95, 105, 110, 105, 116], 115400, 102700, 119700⟩,
    /- cr_h_mean -/ ⟨[99, 114, 95, 104, 95, 109, 101, 97, 110], 115400, 102100, 119700⟩,
    /- cr_h_max -/ ⟨[99, 114, 95, 104, 95, 109, 97, 120], 116400, 103000, 120300⟩,
    /- de_d_range -/ ⟨[100, 101, 95, 100, 95, 114, 97, 110, 103, 101], 2330000, 1760000, 4730000⟩,
    /- de_v_mach_const -/ ⟨[100, 101, 95, 118, 95, 109, 97, 99, 104, 95, 99, 111, 110, 115, 116], 7600, 7200, 8000⟩,
    /- de_v_cas_const -/ ⟨[100, 101, 95, 118, 95, 99, 97, 115, 95, 99, 111, 110, 115, 116], 1450000, 1360000, 1640000⟩,
    /- de_h_mach_const -/ ⟨[100, 101, 95, 104, 95, 109, 97, 99, 104, 95, 99, 111, 110, 115, 116], 92000, 77000, 107000⟩,
    /- de_h_cas_const -/ ⟨[100, 101, 95, 104, 95, 99, 97, 115, 95, 99, 111, 110, 115, 116], 53000, 26000, 81000⟩,
    /- de_vs_avg_mach_const -/ ⟨[100, 101, 95, 118, 115, 95, 97, 118, 103, 95, 109, 97, 99, 104, 95, 99, 111, 110, 115, 116], (-58700), (-121300), (-24100)⟩,
    /- de_vs_avg_cas_const -/ ⟨[100, 101, 95, 118, 115, 95, 97, 118, 103, 95, 99, 97, 115, 95, 99, 111, 110, 115, 116], (-98400), (-142200), (-54500)⟩,
    /- de_vs_avg_after_cas -/ ⟨[100, 101, 95, 118, 115, 95, 97, 118, 103, 95, 97, 102, 116, 101, 114, 95, 99, 97, 115], (-58800), (-76900), (-40700)⟩,
    /- fa_va_avg -/ ⟨[102, 97, 95, 118, 97, 95, 97, 118, 103], 670000, 630000, 760000⟩,
    /- fa_vs_avg -/ ⟨[102, 97, 95, 118, 115, 95, 97, 118, 103], (-34200), (-41900), (-26500)⟩,
    /- fa_agl -/ ⟨[102, 97, 95, 97, 103, 108], 31500, 22500, 40500⟩,
    /- ld_v_app -/ ⟨[108, 100, 95, 118, 95, 97, 112, 112], 662000, 610000, 715000⟩,
    /- ld_d_brk -/ ⟨[108, 100, 95, 100, 95, 98, 114, 107], 13800, 7100, 41800⟩,
    /- ld_acc_brk -/ ⟨[108, 100, 95, 97, 99, 99, 95, 98, 114, 107], (-8700), (-17900), (-3500)⟩]),
  /- a320 -/ ([97, 51, 50, 48], [
    /- to_v_lof -/ ⟨[116, 111, 95, 118, 95, 108, 111, 102], 853000, 745000, 960000⟩,
    /- to_d_tof -/ ⟨[116, 111, 95, 100, 95, 116, 111, 102], 16500, 10600, 22400⟩,
    /- to_acc_tof -/ ⟨[116, 111, 95, 97, 99, 99, 95, 116, 111, 102], 19300, 15000, 23700⟩,
    /- ic_va_avg -/ ⟨[105, 99, 95, 118, 97, 95, 97, 118, 103], 830000, 760000, 890000⟩,
    /- ic_vs_avg -/ ⟨[105, 99, 95, 118, 115, 95, 97, 118, 103], 125900, 91500, 160400⟩,
    /- cl_d_range -/ ⟨[99, 108, 95, 100, 95, 114, 97, 110, 103, 101], 2570000, 1410000, 3740000⟩,
    /- cl_v_cas_const -/ ⟨[99, 108, 95, 118, 95, 99, 97, 115, 95, 99, 111, 110, 115, 116], 1510000, 1400000, 1610000⟩,
    /- cl_v_mach_const -/ ⟨[99, 108, 95, 118, 95, 109, 97, 99, 104, 95, 99, 111, 110, 115, 116], 7800, 7300, 8000⟩,
    /- cl_h_cas_const -/ ⟨[99, 108, 95, 104, 95, 99, 97, 115, 95, 99, 111, 110, 115, 116], 37000, 19000, 54000⟩,
    /- cl_h_mach_const -/ ⟨[99, 108, 95, 104, 95, 109, 97, 99, 104, 95, 99, 111, 110, 115, 116], 88000, 79000, 98000⟩,
    /- cl_vs_avg_pre_cas -/ ⟨[99, 108, 95, 118, 115, 95, 97, 118, 103, 95, 112, 114, 101, 95, 99, 97, 115], 102500, 76300, 128700⟩,
    /- cl_vs_avg_cas_const -/ ⟨[99, 108, 95, 118, 115, 95, 97, 118, 103, 95, 99, 97, 115, 95, 99, 111, 110, 115, 116], 84300, 62800, 106000⟩,
    /- cl_vs_avg_mach_const -/ ⟨[99, 108, 95, 118, 115, 95, 97, 118, 103, 95, 109, 97, 99, 104, 95, 99, 111, 110, 115, 116], 52800, 36000, 69700⟩,
    /- cr_d_range -/ ⟨[99, 114, 95, 100, 95, 114, 97, 110, 103, 101], 8560000, 4870000, 43520000⟩,
    /- cr_v_cas_mean -/ ⟨[99, 114, 95, 118, 95, 99, 97, 115, 95, 109, 101, 97, 110], 1330000, 1240000, 1430000⟩,
    /- cr_v_cas_max -/ ⟨[99, 114, 95, 118, 95, 99, 97, 115, 95, 109, 97, 120], 1350000, 1280000, 1540000⟩,
    /- cr_v_mach_mean -/ ⟨[99, 114, 95, 118, 95, 109, 97, 99, 104, 95, 109, 101, 97, 110], 7800, 7500, 8000⟩,
    /- cr_v_mach_max -/ ⟨[99, 114, 95, 118, 95, 109, 97, 99, 104, 95, 109, 97, 120], 8000, 7700, 8300⟩,
    /- cr_h_init -/ ⟨[99, 114, 95, 104, 95, 105, 110, 105, 116], 108200, 97900, 118500⟩,
    /- cr_h_mean -/ ⟨[99, 114, 95, 104, 95, 109, 101, 97, 110], 109200, 100000, 118400⟩,
    /- cr_h_max -/ ⟨[99, 114, 95, 104, 95, 109, 97, 120], 110600, 102000, 119200⟩,
    /- de_d_range -/ ⟨[100, 101, 95, 100, 95, 114, 97, 110, 103, 101], 2340000, 1800000, 4570000⟩,
    /- de_v_mach_const -/ ⟨[100, 101, 95, 118, 95, 109, 97, 99, 104, 95, 99, 111, 110, 115, 116], 7700, 7300, 8100⟩,
    /- de_v_cas_const -/ ⟨[100, 101, 95, 118, 95, 99, 97, 115, 95, 99, 111, 110, 115, 116], 1440000, 1350000, 1630000⟩,
    /- de_h_mach_const -/ ⟨[100, 101, 95, 104, 95, 109, 97, 99, 104, 95, 99, 111, 110, 115, 116], 96000, 79000, 107000⟩,
    /- de_h_cas_const -/ ⟨[100, 101, 95, 104, 95, 99, 97, 115, 95, 99, 111, 110, 115, 116], 57000, 30000, 85000⟩,
    /- de_vs_avg_mach_const -/ ⟨[100, 101, 95, 118, 115, 95, 97, 118, 103, 95, 109, 97, 99, 104, 95, 99, 111, 110, 115, 116], (-57600), (-134500), (-22600)⟩,
    /- de_vs_avg_cas_const -/ ⟨[100, 101, 95, 118, 115, 95, 97, 118, 103, 95, 99, 97, 115, 95, 99, 111, 110, 115, 116], (-100300), (-146800), (-53500)⟩,
    /- de_vs_avg_after_cas -/ ⟨[100, 101, 95, 118, 115, 95, 97, 118, 103, 95, 97, 102, 116, 101, 114, 95, 99, 97, 115], (-60800), (-78800), (-42700)⟩,
    /- fa_va_avg -/ ⟨[102, 97, 95, 118, 97, 95, 97, 118, 103], 720000, 670000, 770000⟩,
    /- fa_vs_avg -/ ⟨[102, 97, 95, 118, 115, 95, 97, 118, 103], (-35500), (-41800), (-29100)⟩,
    /- fa_agl -/ ⟨[102, 97, 95, 97, 103, 108], 30600, 24000, 37300⟩,
    /- ld_v_app -/ ⟨[108, 100, 95, 118, 95, 97, 112, 112], 694000, 627000, 760000⟩,
    /- ld_d_brk -/ ⟨[108, 100, 95, 100, 95, 98, 114, 107], 10800, 6300, 32100⟩,
    /- ld_acc_brk -/ ⟨[108, 100, 95, 97, 99, 99, 95, 98, 114, 107], (-12200), (-19700), (-4700)⟩]),
  /- a321 -/ ([97, 51, 50, 49], [
    /- to_v_lof -/ ⟨[116, 111, 95, 118, 95, 108, 111, 102], 908000, 801000, 1015000⟩,
    /- to_d_tof -/ ⟨[116, 111, 95, 100, 95, 116, 111, 102], 18500, 11800, 25200⟩,
    /- to_acc_tof -/ ⟨[116, 111, 95, 97, 99, 99, 95, 116, 111, 102], 19500, 14900, 24200⟩,
    /- ic_va_avg -/ ⟨[105, 99, 95, 118, 97, 95, 97, 118, 103], 860000, 790000, 940000⟩,
    /- ic_vs_avg -/ ⟨[105, 99, 95, 118, 115, 95, 97, 118, 103], 132100, 93400, 171100⟩,
    /- cl_d_range -/ ⟨[99, 108, 95, 100, 95, 114, 97, 110, 103, 101], 2300000, 1640000, 4260000⟩,
    /- cl_v_cas_const -/ ⟨[99, 108, 95, 118, 95, 99, 97, 115, 95, 99, 111, 110, 115, 116], 1550000, 1440000, 1660000⟩,
    /- cl_v_mach_const -/ ⟨[99, 108, 95, 118, 95, 109, 97, 99, 104, 95, 99, 111, 110, 115, 116], 7700, 7400, 8100⟩,
    /- cl_h_cas_const -/ ⟨[99, 108, 95, 104, 95, 99, 97, 115, 95, 99, 111, 110, 115, 116], 37000, 21000, 54000⟩,
    /- cl_h_mach_const -/ ⟨[99, 108, 95, 104, 95, 109, 97, 99, 104, 95, 99, 111, 110, 115, 116], 84000, 75000, 93000⟩,
    /- cl_vs_avg_pre_cas -/ ⟨[99, 108, 95, 118, 115, 95, 97, 118, 103, 95, 112, 114, 101, 95, 99, 97, 115], 93800, 70300, 117300⟩,
    /- cl_vs_avg_cas_const -/ ⟨[99, 108, 95, 118, 115, 95, 97, 118, 103, 95, 99, 97, 115, 95, 99, 111, 110, 115, 116], 81700, 59100, 104400⟩,
    /- cl_vs_avg_mach_const -/ ⟨[99, 108, 95, 118, 115, 95, 97, 118, 103, 95, 109, 97, 99, 104, 95, 99, 111, 110, 115, 116], 51900, 33300, 70500⟩,
    /- cr_d_range -/ ⟨[99, 114, 95, 100, 95, 114, 97, 110, 103, 101], 6100000, 1960000, 53380000⟩,
    /- cr_v_cas_mean -/ ⟨[99, 114, 95, 118, 95, 99, 97, 115, 95, 109, 101, 97, 110], 1380000, 1270000, 1490000⟩,
    /- cr_v_cas_max -/ ⟨[99, 114, 95, 118, 95, 99, 97, 115, 95, 109, 97, 120], 1400000, 1300000, 1620000⟩,
    /- cr_v_mach_mean -/ ⟨[99, 114, 95, 118, 95, 109, 97, 99, 104, 95, 109, 101, 97, 110], 7800, 7500, 8000⟩,
    /- cr_v_mach_max -/ ⟨[99, 114, 95, 118, 95, 109, 97, 99, 104, 95, 109, 97, 120], 7900, 7700, 8400⟩,
    /- cr_h_init -/ ⟨[99, 114, 95, 104, 95, 105, 110, 105, 116], 103400, 92300, 114600⟩,
    /- cr_h_mean -/ ⟨[99, 114, 95, 104, 95, 109, 101, 97, 110], 104100, 93600, 114600⟩,
    /- cr_h_max -/ ⟨[99, 114, 95, 104, 95, 109, 97, 120], 105600, 96000, 115200⟩,
    /- de_d_range -/ ⟨[100, 101, 95, 100, 95, 114, 97, 110, 103, 101], 2360000, 1740000, 4630000⟩,
    /- de_v_mach_const -/ ⟨[100, 101, 95, 118, 95, 109, 97, 99, 104, 95, 99, 111, 110, 115, 116], 7700, 7400, 8000⟩,
    /- de_v_cas_const -/ ⟨[100, 101, 95, 118, 95, 99, 97, 115, 95, 99, 111, 110, 115, 116], 1500000, 1380000, 1630000⟩,
    /- de_h_mach_const -/ ⟨[100, 101, 95, 104, 95, 109, 97, 99, 104, 95, 99, 111, 110, 115, 116], 90000, 78000, 103000⟩,
    /- de_h_cas_const -/ ⟨[100, 101, 95, 104, 95, 99, 97, 115, 95, 99, 111, 110, 115, 116], 62000, 33000, 85000⟩,
    /- de_vs_avg_mach_const -/ ⟨[100, 101, 95, 118, 115, 95, 97, 118, 103, 95, 109, 97, 99, 104, 95, 99, 111, 110, 115, 116], (-55200), (-118600), (-21700)⟩,
    /- de_vs_avg_cas_const -/ ⟨[100, 101, 95, 118, 115, 95, 97, 118, 103, 95, 99, 97, 115, 95, 99, 111, 110, 115, 116], (-94100), (-136400), (-51500)⟩,
    /- de_vs_avg_after_cas -/ ⟨[100, 101, 95, 118, 115, 95, 97, 118, 103, 95, 97, 102, 116, 101, 114, 95, 99, 97, 115], (-60100), (-77800), (-42400)⟩,
    /- fa_va_avg -/ ⟨[102, 97, 95, 118, 97, 95, 97, 118, 103], 750000, 700000, 800000⟩,
    /- fa_vs_avg -/ ⟨[102, 97, 95, 118, 115, 95, 97, 118, 103], (-36900), (-43600), (-30100)⟩,
    /- fa_agl -/ ⟨[102, 97, 95, 97, 103, 108], 30100, 23600, 36600⟩,
    /- ld_v_app -/ ⟨[108, 100, 95, 118, 95, 97, 112, 112], 729000, 669000, 789000⟩,
    /- ld_d_brk -/ ⟨[108, 100, 95, 100, 95, 98, 114, 107], 15500, 6400, 39400⟩,
    /- ld_acc_brk -/ ⟨[108, 100, 95, 97, 99, 99, 95, 98, 114, 107], (-12100), (-19800), (-4500)⟩])]

def wrap1 : List (Str × List WrapRow) := [
  /- a332 -/ ([97, 51, 51, 50], [
    /- to_v_lof -/ ⟨[116, 111, 95, 118, 95, 108, 111, 102], 899000, 779000, 1019000⟩,
    /- to_d_tof -/ ⟨[116, 111, 95, 100, 95, 116, 111, 102], 19700, 11600, 27900⟩,
    /- to_acc_tof -/ ⟨[116, 111, 95, 97, 99, 99, 95, 116, 111, 102], 17500, 13200, 21800⟩,
    /- ic_va_avg -/ ⟨[105, 99, 95, 118, 97, 95, 97, 118, 103], 860000, 780000, 940000⟩,
    /- ic_vs_avg -/ ⟨[105, 99, 95, 118, 115, 95, 97, 118, 103], 124800, 84100, 165700⟩,
    /- cl_d_range -/ ⟨[99, 108, 95, 100, 95, 114, 97, 110, 103, 101], 2970000, 1520000, 4420000⟩,
    /- cl_v_cas_const -/ ⟨[99, 108, 95, 118, 95, 99, 97, 115, 95, 99, 111, 110, 115, 116], 1520000, 1430000, 1620000⟩,
    /- cl_v_mach_const -/ ⟨[99, 108, 95, 118, 95, 109, 97, 99, 104, 95, 99, 111, 110, 115, 116], 8100, 7600, 8400⟩,
    /- cl_h_cas_const -/ ⟨[99, 108, 95, 104, 95, 99, 97, 115, 95, 99, 111, 110, 115, 116], 36000, 23000, 60000⟩,
    /- cl_h_mach_const -/ ⟨[99, 108, 95, 104, 95, 109, 97, 99, 104, 95, 99, 111, 110, 115, 116], 92000, 83000, 102000⟩,
    /- cl_vs_avg_pre_cas -/ ⟨[99, 108, 95, 118, 115, 95, 97, 118, 103, 95, 112, 114, 101, 95, 99, 97, 115], 95300, 70400, 120200⟩,
    /- cl_vs_avg_cas_const -/ ⟨[99, 108, 95, 118, 115, 95, 97, 118, 103, 95, 99, 97, 115, 95, 99, 111, 110, 115, 116], 79800, 55100, 104700⟩,
    /- cl_vs_avg_mach_const -/ ⟨[99, 108, 95, 118, 115, 95, 97, 118, 103, 95, 109, 97, 99, 104, 95, 99, 111, 110, 115, 116], 52300, 30300, 74500⟩,
    /- cr_d_range -/ ⟨[99, 114, 95, 100, 95, 114, 97, 110, 103, 101], 10230000, 2290000, 110120000⟩,
    /- cr_v_cas_mean -/ ⟨[99, 114, 95, 118, 95, 99, 97, 115, 95, 109, 101, 97, 110], 1290000, 1230000, 1430000⟩,
    /- cr_v_cas_max -/ ⟨[99, 114, 95, 118, 95, 99, 97, 115, 95, 109, 97, 120], 1350000, 1260000, 1600000⟩,
    /- cr_v_mach_mean -/ ⟨[99, 114, 95, 118, 95, 109, 97, 99, 104, 95, 109, 101, 97, 110], 8100, 7900, 8400⟩,
    /- cr_v_mach_max -/ ⟨[99, 114, 95, 118, 95, 109, 97, 99, 104, 95, 109, 97, 120], 8400, 8100, 8700⟩,
    /- cr_h_init -/ ⟨[99, 114, 95, 104, 95, 105, 110, 105, 116], 113300, 99900, 126800⟩,
    /- cr_h_mean -/ ⟨[99, 114, 95, 104, 95, 109, 101, 97, 110], 116700, 107100, 126300⟩,
    /- cr_h_max -/ ⟨[99, 114, 95, 104, 95, 109, 97, 120], 119500, 111200, 127900⟩,
    /- de_d_range -/ ⟨[100, 101, 95, 100, 95, 114, 97, 110, 103, 101], 2830000, 2070000, 5050000⟩,
    /- de_v_mach_const -/ ⟨[100, 101, 95, 118, 95, 109, 97, 99, 104, 95, 99, 111, 110, 115, 116], 8100, 7600, 8400⟩,
    /- de_v_cas_const -/ ⟨[100, 101, 95, 118, 95, 99, 97, 115, 95, 99, 111, 110, 115, 116], 1520000, 1360000, 1620000⟩,
    /- de_h_mach_const -/ ⟨[100, 101, 95, 104, 95, 109, 97, 99, 104, 95, 99, 111, 110, 115, 116], 102000, 84000, 114000⟩,
    /- de_h_cas_const -/ ⟨[100, 101, 95, 104, 95, 99, 97, 115, 95, 99, 111, 110, 115, 116], 63000, 36000, 90000⟩,
    /- de_vs_avg_mach_const -/ ⟨[100, 101, 95, 118, 115, 95, 97, 118, 103, 95, 109, 97, 99, 104, 95, 99, 111, 110, 115, 116], (-62800), (-125300), (-28500)⟩,
    /- de_vs_avg_cas_const -/ ⟨[100, 101, 95, 118, 115, 95, 97, 118, 103, 95, 99, 97, 115, 95, 99, 111, 110, 115, 116], (-93900), (-134400), (-53100)⟩,
    /- de_vs_avg_after_cas -/ ⟨[100, 101, 95, 118, 115, 95, 97, 118, 103, 95, 97, 102, 116, 101, 114, 95, 99, 97, 115], (-58200), (-75600), (-40700)⟩,
    /- fa_va_avg -/ ⟨[102, 97, 95, 118, 97, 95, 97, 118, 103], 720000, 670000, 780000⟩,
    /- fa_vs_avg -/ ⟨[102, 97, 95, 118, 115, 95, 97, 118, 103], (-36200), (-42400), (-29900)⟩,
    /- fa_agl -/ ⟨[102, 97, 95, 97, 103, 108], 29800, 24400, 35300⟩,
    /- ld_v_app -/ ⟨[108, 100, 95, 118, 95, 97, 112, 112], 707000, 655000, 759000⟩,
    /- ld_d_brk -/ ⟨[108, 100, 95, 100, 95, 98, 114, 107], 15400, 8700, 36700⟩,
    /- ld_acc_brk -/ ⟨[108, 100, 95, 97, 99, 99, 95, 98, 114, 107], (-11800), (-18500), (-5000)⟩]),
  /- a333 -/ ([97, 51, 51, 51], [
    /- to_v_lof -/ ⟨[116, 111, 95, 118, 95, 108, 111, 102], 899000, 778000, 1021000⟩,
    /- to_d_tof -/ ⟨[116, 111, 95, 100, 95, 116, 111, 102], 18600, 12700, 30100⟩,
    /- to_acc_tof -/ ⟨[116, 111, 95, 97, 99, 99, 95, 116, 111, 102], 17200, 13200, 21300⟩,
    /- ic_va_avg -/ ⟨[105, 99, 95, 118, 97, 95, 97, 118, 103], 870000, 790000, 940000⟩,
    /- ic_vs_avg -/ ⟨[105, 99, 95, 118, 115, 95, 97, 118, 103], 122800, 84700, 161100⟩,
    /- cl_d_range -/ ⟨[99, 108, 95, 100, 95, 114, 97, 110, 103, 101], 2870000, 1740000, 4560000⟩,
    /- cl_v_cas_const -/ ⟨[99, 108, 95, 118, 95, 99, 97, 115, 95, 99, 111, 110, 115, 116], 1530000, 1420000, 1650000⟩,
    /- cl_v_mach_const -/ ⟨[99, 108, 95, 118, 95, 109, 97, 99, 104, 95, 99, 111, 110, 115, 116], 8000, 7500, 8400⟩,
    /- cl_h_cas_const -/ ⟨[99, 108, 95, 104, 95, 99, 97, 115, 95, 99, 111, 110, 115, 116], 31000, 19000, 62000⟩,
    /- cl_h_mach_const -/ ⟨[99, 108, 95, 104, 95, 109, 97, 99, 104, 95, 99, 111, 110, 115, 116], 91000, 80000, 102000⟩,
    /- cl_vs_avg_pre_cas -/ ⟨[99, 108, 95, 118, 115, 95, 97, 118, 103, 95, 112, 114, 101, 95, 99, 97, 115], 88200, 64600, 111900⟩,
    /- cl_vs_avg_cas_const -/ ⟨[99, 108, 95, 118, 115, 95, 97, 118, 103, 95, 99, 97, 115, 95, 99, 111, 110, 115, 116], 76500, 52400, 100800⟩,
    /- cl_vs_avg_mach_const -/ ⟨[99, 108, 95, 118, 115, 95, 97, 118, 103, 95, 109, 97, 99, 104, 95, 99, 111, 110, 115, 116], 45600, 31400, 79000⟩,
    /- cr_d_range -/ ⟨[99, 114, 95, 100, 95, 114, 97, 110, 103, 101], 7890000, 6040000, 89110000⟩,
    /- cr_v_cas_mean -/ ⟨[99, 114, 95, 118, 95, 99, 97, 115, 95, 109, 101, 97, 110], 1310000, 1240000, 1440000⟩,
    /- cr_v_cas_max -/ ⟨[99, 114, 95, 118, 95, 99, 97, 115, 95, 109, 97, 120], 1370000, 1280000, 1610000⟩,
    /- cr_v_mach_mean -/ ⟨[99, 114, 95, 118, 95, 109, 97, 99, 104, 95, 109, 101, 97, 110], 8100, 7900, 8300⟩,
    /- cr_v_mach_max -/ ⟨[99, 114, 95, 118, 95, 109, 97, 99, 104, 95, 109, 97, 120], 8300, 8100, 8700⟩,
    /- cr_h_init -/ ⟨[99, 114, 95, 104, 95, 105, 110, 105, 116], 111000, 97400, 124600⟩,
    /- cr_h_mean -/ ⟨[99, 114, 95, 104, 95, 109, 101, 97, 110], 114900, 105400, 124500⟩,
    /- cr_h_max -/ ⟨[99, 114, 95, 104, 95, 109, 97, 120], 125300, 106300, 124800⟩,
    /- de_d_range -/ ⟨[100, 101, 95, 100, 95, 114, 97, 110, 103, 101], 2840000, 2140000, 5080000⟩,
    /- de_v_mach_const -/ ⟨[100, 101, 95, 118, 95, 109, 97, 99, 104, 95, 99, 111, 110, 115, 116], 8100, 7700, 8400⟩,
    /- de_v_cas_const -/ ⟨[100, 101, 95, 118, 95, 99, 97, 115, 95, 99, 111, 110, 115, 116], 1500000, 1370000, 1620000⟩,
    /- de_h_mach_const -/ ⟨[100, 101, 95, 104, 95, 109, 97, 99, 104, 95, 99, 111, 110, 115, 116], 102000, 85000, 113000⟩,
    /- de_h_cas_const -/ ⟨[100, 101, 95, 104, 95, 99, 97, 115, 95, 99, 111, 110, 115, 116], 63000, 34000, 91000⟩,
    /- de_vs_avg_mach_const -/ ⟨[100, 101, 95, 118, 115, 95, 97, 118, 103, 95, 109, 97, 99, 104, 95, 99, 111, 110, 115, 116], (-61700), (-125000), (-26800)⟩,
    /- de_vs_avg_cas_const -/ ⟨[100, 101, 95, 118, 115, 95, 97, 118, 103, 95, 99, 97, 115, 95, 99, 111, 110, 115, 116], (-90300), (-130700), (-49600)⟩,
    /- de_vs_avg_after_cas -/ ⟨[100, 101, 95, 118, 115, 95, 97, 118, 103, 95, 97, 102, 116, 101, 114, 95, 99, 97, 115], (-57400), (-74100), (-40600)⟩,
    /- fa_va_avg -/ ⟨[102, 97, 95, 118, 97, 95, 97, 118, 103], 730000, 690000, 780000⟩,
    /- fa_vs_avg -/ ⟨[102, 97, 95, 118, 115, 95, 97, 118, 103], (-37400), (-42200), (-29700)⟩,
    /- fa_agl -/ ⟨[102, 97, 95, 97, 103, 108], 29700, 24400, 34900⟩,
    /- ld_v_app -/ ⟨[108, 100, 95, 118, 95, 97, 112, 112], 715000, 655000, 776000⟩,
    /- ld_d_brk -/ ⟨[108, 100, 95, 100, 95, 98, 114, 107], 14800, 8100, 37900⟩,
    /- ld_acc_brk -/ ⟨[108, 100, 95, 97, 99, 99, 95, 98, 114, 107], (-12000), (-18600), (-5300)⟩]),
  /- a343 -/ ([97, 51, 52, 51], [
    /- to_v_lof -/ ⟨[116, 111, 95, 118, 95, 108, 111, 102], 870000, 760000, 982000⟩,
    /- to_d_tof -/ ⟨[116, 111, 95, 100, 95, 116, 111, 102], 21600, 14600, 38200⟩,
    /- to_acc_tof -/ ⟨[116, 111, 95, 97, 99, 99, 95, 116, 111, 102], 14000, 10100, 18000⟩,
    /- ic_va_avg -/ ⟨[105, 99, 95, 118, 97, 95, 97, 118, 103], 840000, 760000, 930000⟩,
    /- ic_vs_avg -/ ⟨[105, 99, 95, 118, 115, 95, 97, 118, 103], 64400, 48200, 110100⟩,
    /- cl_d_range -/ ⟨[99, 108, 95, 100, 95, 114, 97, 110, 103, 101], 2930000, 1540000, 4310000⟩,
    /- cl_v_cas_const -/ ⟨[99, 108, 95, 118, 95, 99, 97, 115, 95, 99, 111, 110, 115, 116], 1550000, 1440000, 1690000⟩,
    /- cl_v_mach_const -/ ⟨[99, 108, 95, 118, 95, 109, 97, 99, 104, 95, 99, 111, 110, 115, 116], 7800, 7500, 8100⟩,
    /- cl_h_cas_const -/ ⟨[99, 108, 95, 104, 95, 99, 97, 115, 95, 99, 111, 110, 115, 116], 36000, 17000, 55000⟩,
    /- cl_h_mach_const -/ ⟨[99, 108, 95, 104, 95, 109, 97, 99, 104, 95, 99, 111, 110, 115, 116], 85000, 73000, 98000⟩,
    /- cl_vs_avg_pre_cas -/ ⟨[99, 108, 95, 118, 115, 95, 97, 118, 103, 95, 112, 114, 101, 95, 99, 97, 115], 65400, 50900, 104100⟩,
    /- cl_vs_avg_cas_const -/ ⟨[99, 108, 95, 118, 115, 95, 97, 118, 103, 95, 99, 97, 115, 95, 99, 111, 110, 115, 116], 65900, 48700, 100500⟩,
    /- cl_vs_avg_mach_const -/ ⟨[99, 108, 95, 118, 115, 95, 97, 118, 103, 95, 109, 97, 99, 104, 95, 99, 111, 110, 115, 116], 40800, 26500, 71700⟩,
    /- cr_d_range -/ ⟨[99, 114, 95, 100, 95, 114, 97, 110, 103, 101], 60210000, (-18650000), 139290000⟩,
    /- cr_v_cas_mean -/ ⟨[99, 114, 95, 118, 95, 99, 97, 115, 95, 109, 101, 97, 110], 1380000, 1280000, 1480000⟩,
    /- cr_v_cas_max -/ ⟨[99, 114, 95, 118, 95, 99, 97, 115, 95, 109, 97, 120], 1490000, 1320000, 1650000⟩,
    /- cr_v_mach_mean -/ ⟨[99, 114, 95, 118, 95, 109, 97, 99, 104, 95, 109, 101, 97, 110], 8100, 7900, 8300⟩,
    /- cr_v_mach_max -/ ⟨[99, 114, 95, 118, 95, 109, 97, 99, 104, 95, 109, 97, 120], 8300, 8100, 8800⟩,
    /- cr_h_init -/ ⟨[99, 114, 95, 104, 95, 105, 110, 105, 116], 100100, 89200, 120900⟩,
    /- cr_h_mean -/ ⟨[99, 114, 95, 104, 95, 109, 101, 97, 110], 108600, 101200, 121000⟩,
    /- cr_h_max -/ ⟨[99, 114, 95, 104, 95, 109, 97, 120], 117000, 106100, 123500⟩,
    /- de_d_range -/ ⟨[100, 101, 95, 100, 95, 114, 97, 110, 103, 101], 2810000, 2030000, 4890000⟩,
    /- de_v_mach_const -/ ⟨[100, 101, 95, 118, 95, 109, 97, 99, 104, 95, 99, 111, 110, 115, 116], 8100, 7600, 8400⟩,
    /- de_v_cas_const -/ ⟨[100, 101, 95, 118, 95, 99, 97, 115, 95, 99, 111, 110, 115, 116], 1540000, 1380000, 1650000⟩,
    /- de_h_mach_const -/ ⟨[100, 101, 95, 104, 95, 109, 97, 99, 104, 95, 99, 111, 110, 115, 116], 99000, 83000, 111000⟩,
    /- de_h_cas_const -/ ⟨[100, 101, 95, 104, 95, 99, 97, 115, 95, 99, 111, 110, 115, 116], 58000, 30000, 88000⟩,
    /- de_vs_avg_mach_const -/ ⟨[100, 101, 95, 118, 115, 95, 97, 118, 103, 95, 109, 97, 99, 104, 95, 99, 111, 110, 115, 116], (-58400), (-121500), (-26800)⟩,
    /- de_vs_avg_cas_const -/ ⟨[100, 101, 95, 118, 115, 95, 97, 118, 103, 95, 99, 97, 115, 95, 99, 111, 110, 115, 116], (-92700), (-135600), (-49700)⟩,
    /- de_vs_avg_after_cas -/ ⟨[100, 101, 95, 118, 115, 95, 97, 118, 103, 95, 97, 102, 116, 101, 114, 95, 99, 97, 115], (-55000), (-72200), (-37800)⟩,
    /- fa_va_avg -/ ⟨[102, 97, 95, 118, 97, 95, 97, 118, 103], 740000, 690000, 790000⟩,
    /- fa_vs_avg -/ ⟨[102, 97, 95, 118, 115, 95, 97, 118, 103], (-36400), (-43100), (-29700)⟩,
    /- fa_agl -/ ⟨[102, 97, 95, 97, 103, 108], 30400, 24700, 36100⟩,
    /- ld_v_app -/ ⟨[108, 100, 95, 118, 95, 97, 112, 112], 722000, 675000, 770000⟩,
    /- ld_d_brk -/ ⟨[108, 100, 95, 100, 95, 98, 114, 107], 16500, 9200, 39900⟩,
    /- ld_acc_brk -/ ⟨[108, 100, 95, 97, 99, 99, 95, 98, 114, 107], (-10100), (-18300), (-4900)⟩])]

def wrap2 : List (Str × List WrapRow) := [
  /- a388 -/ ([97, 51, 56, 56], [
    /- to_v_lof -/ ⟨[116, 111, 95, 118, 95, 108, 111, 102], 899000, 754000, 1044000⟩,
    /- to_d_tof -/ ⟨[116, 111, 95, 100, 95, 116, 111, 102], 25600, 13500, 37800⟩,
    /- to_acc_tof -/ ⟨[116, 111, 95, 97, 99, 99, 95, 116, 111, 102], 13500, 10400, 16600⟩,
    /- ic_va_avg -/ ⟨[105, 99, 95, 118, 97, 95, 97, 118, 103], 880000, 800000, 960000⟩,
    /- ic_vs_avg -/ ⟨[105, 99, 95, 118, 115, 95, 97, 118, 103], 56500, 44000, 89400⟩,
    /- cl_d_range -/ ⟨[99, 108, 95, 100, 95, 114, 97, 110, 103, 101], 2960000, 2000000, 4460000⟩,
    /- cl_v_cas_const -/ ⟨[99, 108, 95, 118, 95, 99, 97, 115, 95, 99, 111, 110, 115, 116], 1630000, 1550000, 1700000⟩,
    /- cl_v_mach_const -/ ⟨[99, 108, 95, 118, 95, 109, 97, 99, 104, 95, 99, 111, 110, 115, 116], 8400, 8000, 8600⟩,
    /- cl_h_cas_const -/ ⟨[99, 108, 95, 104, 95, 99, 97, 115, 95, 99, 111, 110, 115, 116], 33000, 13000, 53000⟩,
    /- cl_h_mach_const -/ ⟨[99, 108, 95, 104, 95, 109, 97, 99, 104, 95, 99, 111, 110, 115, 116], 89000, 82000, 97000⟩,
    /- cl_vs_avg_pre_cas -/ ⟨[99, 108, 95, 118, 115, 95, 97, 118, 103, 95, 112, 114, 101, 95, 99, 97, 115], 78500, 59500, 97500⟩,
    /- cl_vs_avg_cas_const -/ ⟨[99, 108, 95, 118, 115, 95, 97, 118, 103, 95, 99, 97, 115, 95, 99, 111, 110, 115, 116], 75100, 52000, 98200⟩,
    /- cl_vs_avg_mach_const -/ ⟨[99, 108, 95, 118, 115, 95, 97, 118, 103, 95, 109, 97, 99, 104, 95, 99, 111, 110, 115, 116], 55600, 32300, 79100⟩,
    /- cr_d_range -/ ⟨[99, 114, 95, 100, 95, 114, 97, 110, 103, 101], 43480000, 8920000, 205650000⟩,
    /- cr_v_cas_mean -/ ⟨[99, 114, 95, 118, 95, 99, 97, 115, 95, 109, 101, 97, 110], 1360000, 1300000, 1450000⟩,
    /- cr_v_cas_max -/ ⟨[99, 114, 95, 118, 95, 99, 97, 115, 95, 109, 97, 120], 1450000, 1340000, 1640000⟩,
    /- cr_v_mach_mean -/ ⟨[99, 114, 95, 118, 95, 109, 97, 99, 104, 95, 109, 101, 97, 110], 8400, 8200, 8600⟩,
    /- cr_v_mach_max -/ ⟨[99, 114, 95, 118, 95, 109, 97, 99, 104, 95, 109, 97, 120], 8700, 8500, 9000⟩,
    /- cr_h_init -/ ⟨[99, 114, 95, 104, 95, 105, 110, 105, 116], 115500, 93000, 122300⟩,
    /- cr_h_mean -/ ⟨[99, 114, 95, 104, 95, 109, 101, 97, 110], 117300, 108700, 122800⟩,
    /- cr_h_max -/ ⟨[99, 114, 95, 104, 95, 109, 97, 120], 120600, 115200, 126000⟩,
    /- de_d_range -/ ⟨[100, 101, 95, 100, 95, 114, 97, 110, 103, 101], 3100000, 2380000, 5280000⟩,
    /- de_v_mach_const -/ ⟨[100, 101, 95, 118, 95, 109, 97, 99, 104, 95, 99, 111, 110, 115, 116], 8300, 8000, 8700⟩,
    /- de_v_cas_const -/ ⟨[100, 101, 95, 118, 95, 99, 97, 115, 95, 99, 111, 110, 115, 116], 1540000, 1420000, 1670000⟩,
    /- de_h_mach_const -/ ⟨[100, 101, 95, 104, 95, 109, 97, 99, 104, 95, 99, 111, 110, 115, 116], 101000, 86000, 115000⟩,
    /- de_h_cas_const -/ ⟨[100, 101, 95, 104, 95, 99, 97, 115, 95, 99, 111, 110, 115, 116], 66000, 39000, 94000⟩,
    /- de_vs_avg_mach_const -/ ⟨[100, 101, 95, 118, 115, 95, 97, 118, 103, 95, 109, 97, 99, 104, 95, 99, 111, 110, 115, 116], (-60600), (-119000), (-29700)⟩,
    /- de_vs_avg_cas_const -/ ⟨[100, 101, 95, 118, 115, 95, 97, 118, 103, 95, 99, 97, 115, 95, 99, 111, 110, 115, 116], (-83600), (-117400), (-49700)⟩,
    /- de_vs_avg_after_cas -/ ⟨[100, 101, 95, 118, 115, 95, 97, 118, 103, 95, 97, 102, 116, 101, 114, 95, 99, 97, 115], (-54800), (-69300), (-40200)⟩,
    /- fa_va_avg -/ ⟨[102, 97, 95, 118, 97, 95, 97, 118, 103], 730000, 680000, 770000⟩,
    /- fa_vs_avg -/ ⟨[102, 97, 95, 118, 115, 95, 97, 118, 103], (-37100), (-41300), (-29200)⟩,
    /- fa_agl -/ ⟨[102, 97, 95, 97, 103, 108], 29000, 24200, 33800⟩,
    /- ld_v_app -/ ⟨[108, 100, 95, 118, 95, 97, 112, 112], 700000, 621000, 780000⟩,
    /- ld_d_brk -/ ⟨[108, 100, 95, 100, 95, 98, 114, 107], 22600, 7300, 38000⟩,
    /- ld_acc_brk -/ ⟨[108, 100, 95, 97, 99, 99, 95, 98, 114, 107], (-10100), (-15100), (-5200)⟩]),
  /- b737 -/ ([98, 55, 51, 55], [
    /- to_v_lof -/ ⟨[116, 111, 95, 118, 95, 108, 111, 102], 836000, 723000, 948000⟩,
    /- to_d_tof -/ ⟨[116, 111, 95, 100, 95, 116, 111, 102], 15000, 10300, 25800⟩,
    /- to_acc_tof -/ ⟨[116, 111, 95, 97, 99, 99, 95, 116, 111, 102], 17700, 13100, 22300⟩,
    /- ic_va_avg -/ ⟨[105, 99, 95, 118, 97, 95, 97, 118, 103], 810000, 710000, 910000⟩,
    /- ic_vs_avg -/ ⟨[105, 99, 95, 118, 115, 95, 97, 118, 103], 119300, 80500, 158300⟩,
    /- cl_d_range -/ ⟨[99, 108, 95, 100, 95, 114, 97, 110, 103, 101], 2040000, 1550000, 3480000⟩,
    /- cl_v_cas_const -/ ⟨[99, 108, 95, 118, 95, 99, 97, 115, 95, 99, 111, 110, 115, 116], 1510000, 1390000, 1640000⟩,
    /- cl_v_mach_const -/ ⟨[99, 108, 95, 118, 95, 109, 97, 99, 104, 95, 99, 111, 110, 115, 116], 7800, 7200, 8100⟩,
    /- cl_h_cas_const -/ ⟨[99, 108, 95, 104, 95, 99, 97, 115, 95, 99, 111, 110, 115, 116], 34000, 22000, 61000⟩,
    /- cl_h_mach_const -/ ⟨[99, 108, 95, 104, 95, 109, 97, 99, 104, 95, 99, 111, 110, 115, 116], 89000, 79000, 98000⟩,
    /- cl_vs_avg_pre_cas -/ ⟨[99, 108, 95, 118, 115, 95, 97, 118, 103, 95, 112, 114, 101, 95, 99, 97, 115], 114000, 80100, 148200⟩,
    /- cl_vs_avg_cas_const -/ ⟨[99, 108, 95, 118, 115, 95, 97, 118, 103, 95, 99, 97, 115, 95, 99, 111, 110, 115, 116], 117100, 84900, 149300⟩,
    /- cl_vs_avg_mach_const -/ ⟨[99, 108, 95, 118, 115, 95, 97, 118, 103, 95, 109, 97, 99, 104, 95, 99, 111, 110, 115, 116], 67400, 44000, 90800⟩,
    /- cr_d_range -/ ⟨[99, 114, 95, 100, 95, 114, 97, 110, 103, 101], 4530000, 1750000, 49290000⟩,
    /- cr_v_cas_mean -/ ⟨[99, 114, 95, 118, 95, 99, 97, 115, 95, 109, 101, 97, 110], 1220000, 1150000, 1360000⟩,
    /- cr_v_cas_max -/ ⟨[99, 114, 95, 118, 95, 99, 97, 115, 95, 109, 97, 120], 1260000, 1180000, 1500000⟩,
    /- cr_v_mach_mean -/ ⟨[99, 114, 95, 118, 95, 109, 97, 99, 104, 95, 109, 101, 97, 110], 7800, 7400, 8000⟩,
    /- cr_v_mach_max -/ ⟨[99, 114, 95, 118, 95, 109, 97, 99, 104, 95, 109, 97, 120], 8000, 7600, 8300⟩,
    /- cr_h_init -/ ⟨[99, 114, 95, 104, 95, 105, 110, 105, 116], 125200, 103600, 124700⟩,
    /- cr_h_mean -/ ⟨[99, 114, 95, 104, 95, 109, 101, 97, 110], 117400, 107300, 127500⟩,
    /- cr_h_max -/ ⟨[99, 114, 95, 104, 95, 109, 97, 120], 119000, 110300, 127800⟩,
    /- de_d_range -/ ⟨[100, 101, 95, 100, 95, 114, 97, 110, 103, 101], 2440000, 1730000, 5660000⟩,
    /- de_v_mach_const -/ ⟨[100, 101, 95, 118, 95, 109, 97, 99, 104, 95, 99, 111, 110, 115, 116], 7800, 7000, 8100⟩,
    /- de_v_cas_const -/ ⟨[100, 101, 95, 118, 95, 99, 97, 115, 95, 99, 111, 110, 115, 116], 1460000, 1330000, 1590000⟩,
    /- de_h_mach_const -/ ⟨[100, 101, 95, 104, 95, 109, 97, 99, 104, 95, 99, 111, 110, 115, 116], 96000, 81000, 112000⟩,
    /- de_h_cas_const -/ ⟨[100, 101, 95, 104, 95, 99, 97, 115, 95, 99, 111, 110, 115, 116], 57000, 30000, 85000⟩,
    /- de_vs_avg_mach_const -/ ⟨[100, 101, 95, 118, 115, 95, 97, 118, 103, 95, 109, 97, 99, 104, 95, 99, 111, 110, 115, 116], (-56300), (-131300), (-22900)⟩,
    /- de_vs_avg_cas_const -/ ⟨[100, 101, 95, 118, 115, 95, 97, 118, 103, 95, 99, 97, 115, 95, 99, 111, 110, 115, 116], (-93900), (-142100), (-45500)⟩,
    /- de_vs_avg_after_cas -/ ⟨[100, 101, 95, 118, 115, 95, 97, 118, 103, 95, 97, 102, 116, 101, 114, 95, 99, 97, 115], (-58500), (-78400), (-38600)⟩,
    /- fa_va_avg -/ ⟨[102, 97, 95, 118, 97, 95, 97, 118, 103], 700000, 650000, 800000⟩,
    /- fa_vs_avg -/ ⟨[102, 97, 95, 118, 115, 95, 97, 118, 103], (-35800), (-44500), (-27000)⟩,
    /- fa_agl -/ ⟨[102, 97, 95, 97, 103, 108], 30800, 22800, 38700⟩,
    /- ld_v_app -/ ⟨[108, 100, 95, 118, 95, 97, 112, 112], 688000, 629000, 746000⟩,
    /- ld_d_brk -/ ⟨[108, 100, 95, 100, 95, 98, 114, 107], 19100, 6600, 43900⟩,
    /- ld_acc_brk -/ ⟨[108, 100, 95, 97, 99, 99, 95, 98, 114, 107], (-8300), (-19000), (-3100)⟩]),
  /- b738 -/ ([98, 55, 51, 56], [
    /- to_v_lof -/ ⟨[116, 111, 95, 118, 95, 108, 111, 102], 865000, 750000, 980000⟩,
    /- to_d_tof -/ ⟨[116, 111, 95, 100, 95, 116, 111, 102], 16400, 11300, 26300⟩,
    /- to_acc_tof -/ ⟨[116, 111, 95, 97, 99, 99, 95, 116, 111, 102], 18200, 13700, 22800⟩,
    /- ic_va_avg -/ ⟨[105, 99, 95, 118, 97, 95, 97, 118, 103], 870000, 800000, 930000⟩,
    /- ic_vs_avg -/ ⟨[105, 99, 95, 118, 115, 95, 97, 118, 103], 122700, 82900, 162600⟩,
    /- cl_d_range -/ ⟨[99, 108, 95, 100, 95, 114, 97, 110, 103, 101], 2160000, 1680000, 3500000⟩,
    /- cl_v_cas_const -/ ⟨[99, 108, 95, 118, 95, 99, 97, 115, 95, 99, 111, 110, 115, 116], 1510000, 1400000, 1610000⟩,
    /- cl_v_mach_const -/ ⟨[99, 108, 95, 118, 95, 109, 97, 99, 104, 95, 99, 111, 110, 115, 116], 7700, 7500, 8000⟩,
    /- cl_h_cas_const -/ ⟨[99, 108, 95, 104, 95, 99, 97, 115, 95, 99, 111, 110, 115, 116], 36000, 18000, 54000⟩,
    /- cl_h_mach_const -/ ⟨[99, 108, 95, 104, 95, 109, 97, 99, 104, 95, 99, 111, 110, 115, 116], 89000, 79000, 98000⟩,
    /- cl_vs_avg_pre_cas -/ ⟨[99, 108, 95, 118, 115, 95, 97, 118, 103, 95, 112, 114, 101, 95, 99, 97, 115], 106100, 78300, 134100⟩,
    /- cl_vs_avg_cas_const -/ ⟨[99, 108, 95, 118, 115, 95, 97, 118, 103, 95, 99, 97, 115, 95, 99, 111, 110, 115, 116], 102400, 77000, 128000⟩,
    /- cl_vs_avg_mach_const -/ ⟨[99, 108, 95, 118, 115, 95, 97, 118, 103, 95, 109, 97, 99, 104, 95, 99, 111, 110, 115, 116], 62000, 43100, 81100⟩,
    /- cr_d_range -/ ⟨[99, 114, 95, 100, 95, 114, 97, 110, 103, 101], 9290000, 5020000, 49530000⟩,
    /- cr_v_cas_mean -/ ⟨[99, 114, 95, 118, 95, 99, 97, 115, 95, 109, 101, 97, 110], 1300000, 1210000, 1390000⟩,
    /- cr_v_cas_max -/ ⟨[99, 114, 95, 118, 95, 99, 97, 115, 95, 109, 97, 120], 1320000, 1250000, 1510000⟩,
    /- cr_v_mach_mean -/ ⟨[99, 114, 95, 118, 95, 109, 97, 99, 104, 95, 109, 101, 97, 110], 7800, 7500, 8000⟩,
    /- cr_v_mach_max -/ ⟨[99, 114, 95, 118, 95, 109, 97, 99, 104, 95, 109, 97, 120], 8000, 7700, 8300⟩,
    /- cr_h_init -/ ⟨[99, 114, 95, 104, 95, 105, 110, 105, 116], 111300, 101600, 121000⟩,
    /- cr_h_mean -/ ⟨[99, 114, 95, 104, 95, 109, 101, 97, 110], 112300, 103500, 121200⟩,
    /- cr_h_max -/ ⟨[99, 114, 95, 104, 95, 109, 97, 120], 113800, 105700, 121900⟩,
    /- de_d_range -/ ⟨[100, 101, 95, 100, 95, 114, 97, 110, 103, 101], 2410000, 1790000, 4720000⟩,
    /- de_v_mach_const -/ ⟨[100, 101, 95, 118, 95, 109, 97, 99, 104, 95, 99, 111, 110, 115, 116], 7700, 7300, 8100⟩,
    /- de_v_cas_const -/ ⟨[100, 101, 95, 118, 95, 99, 97, 115, 95, 99, 111, 110, 115, 116], 1450000, 1320000, 1590000⟩,
    /- de_h_mach_const -/ ⟨[100, 101, 95, 104, 95, 109, 97, 99, 104, 95, 99, 111, 110, 115, 116], 97000, 83000, 111000⟩,
    /- de_h_cas_const -/ ⟨[100, 101, 95, 104, 95, 99, 97, 115, 95, 99, 111, 110, 115, 116], 59000, 32000, 87000⟩,
    /- de_vs_avg_mach_const -/ ⟨[100, 101, 95, 118, 115, 95, 97, 118, 103, 95, 109, 97, 99, 104, 95, 99, 111, 110, 115, 116], (-58000), (-127300), (-21100)⟩,
    /- de_vs_avg_cas_const -/ ⟨[100, 101, 95, 118, 115, 95, 97, 118, 103, 95, 99, 97, 115, 95, 99, 111, 110, 115, 116], (-99500), (-143900), (-54800)⟩,
    /- de_vs_avg_after_cas -/ ⟨[100, 101, 95, 118, 115, 95, 97, 118, 103, 95, 97, 102, 116, 101, 114, 95, 99, 97, 115], (-62300), (-79100), (-45300)⟩,
    /- fa_va_avg -/ ⟨[102, 97, 95, 118, 97, 95, 97, 118, 103], 770000, 720000, 820000⟩,
    /- fa_vs_avg -/ ⟨[102, 97, 95, 118, 115, 95, 97, 118, 103], (-38400), (-45600), (-31200)⟩,
    /- fa_agl -/ ⟨[102, 97, 95, 97, 103, 108], 30200, 23300, 37200⟩,
    /- ld_v_app -/ ⟨[108, 100, 95, 118, 95, 97, 112, 112], 754000, 695000, 813000⟩,
    /- ld_d_brk -/ ⟨[108, 100, 95, 100, 95, 98, 114, 107], 12500, 6800, 36000⟩,
    /- ld_acc_brk -/ ⟨[108, 100, 95, 97, 99, 99, 95, 98, 114, 107], (-13600), (-21400), (-5700)⟩])]

def wrap3 : List (Str × List WrapRow) := [
  /- b739 -/ ([98, 55, 51, 57], [
    /- to_v_lof -/ ⟨[116, 111, 95, 118, 95, 108, 111, 102], 913000, 776000, 1050000⟩,
    /- to_d_tof -/ ⟨[116, 111, 95, 100, 95, 116, 111, 102], 19100, 11400, 29000⟩,
    /- to_acc_tof -/ ⟨[116, 111, 95, 97, 99, 99, 95, 116, 111, 102], 18700, 14100, 23200⟩,
    /- ic_va_avg -/ ⟨[105, 99, 95, 118, 97, 95, 97, 118, 103], 910000, 840000, 990000⟩,
    /- ic_vs_avg -/ ⟨[105, 99, 95, 118, 115, 95, 97, 118, 103], 123600, 78500, 169000⟩,
    /- cl_d_range -/ ⟨[99, 108, 95, 100, 95, 114, 97, 110, 103, 101], 2390000, 1420000, 3370000⟩,
    /- cl_v_cas_const -/ ⟨[99, 108, 95, 118, 95, 99, 97, 115, 95, 99, 111, 110, 115, 116], 1540000, 1430000, 1660000⟩,
    /- cl_v_mach_const -/ ⟨[99, 108, 95, 118, 95, 109, 97, 99, 104, 95, 99, 111, 110, 115, 116], 7800, 7500, 8100⟩,
    /- cl_h_cas_const -/ ⟨[99, 108, 95, 104, 95, 99, 97, 115, 95, 99, 111, 110, 115, 116], 34000, 23000, 59000⟩,
    /- cl_h_mach_const -/ ⟨[99, 108, 95, 104, 95, 109, 97, 99, 104, 95, 99, 111, 110, 115, 116], 86000, 77000, 95000⟩,
    /- cl_vs_avg_pre_cas -/ ⟨[99, 108, 95, 118, 115, 95, 97, 118, 103, 95, 112, 114, 101, 95, 99, 97, 115], 101800, 76400, 127200⟩,
    /- cl_vs_avg_cas_const -/ ⟨[99, 108, 95, 118, 115, 95, 97, 118, 103, 95, 99, 97, 115, 95, 99, 111, 110, 115, 116], 88800, 66600, 111200⟩,
    /- cl_vs_avg_mach_const -/ ⟨[99, 108, 95, 118, 115, 95, 97, 118, 103, 95, 109, 97, 99, 104, 95, 99, 111, 110, 115, 116], 55500, 36700, 74300⟩,
    /- cr_d_range -/ ⟨[99, 114, 95, 100, 95, 114, 97, 110, 103, 101], 3380000, 1930000, 44580000⟩,
    /- cr_v_cas_mean -/ ⟨[99, 114, 95, 118, 95, 99, 97, 115, 95, 109, 101, 97, 110], 1380000, 1270000, 1490000⟩,
    /- cr_v_cas_max -/ ⟨[99, 114, 95, 118, 95, 99, 97, 115, 95, 109, 97, 120], 1450000, 1310000, 1590000⟩,
    /- cr_v_mach_mean -/ ⟨[99, 114, 95, 118, 95, 109, 97, 99, 104, 95, 109, 101, 97, 110], 7800, 7600, 8100⟩,
    /- cr_v_mach_max -/ ⟨[99, 114, 95, 118, 95, 109, 97, 99, 104, 95, 109, 97, 120], 8100, 7800, 8400⟩,
    /- cr_h_init -/ ⟨[99, 114, 95, 104, 95, 105, 110, 105, 116], 104300, 94300, 114300⟩,
    /- cr_h_mean -/ ⟨[99, 114, 95, 104, 95, 109, 101, 97, 110], 105200, 96300, 114100⟩,
    /- cr_h_max -/ ⟨[99, 114, 95, 104, 95, 109, 97, 120], 107400, 97300, 116100⟩,
    /- de_d_range -/ ⟨[100, 101, 95, 100, 95, 114, 97, 110, 103, 101], 2450000, 1800000, 5050000⟩,
    /- de_v_mach_const -/ ⟨[100, 101, 95, 118, 95, 109, 97, 99, 104, 95, 99, 111, 110, 115, 116], 7800, 7300, 8000⟩,
    /- de_v_cas_const -/ ⟨[100, 101, 95, 118, 95, 99, 97, 115, 95, 99, 111, 110, 115, 116], 1480000, 1380000, 1590000⟩,
    /- de_h_mach_const -/ ⟨[100, 101, 95, 104, 95, 109, 97, 99, 104, 95, 99, 111, 110, 115, 116], 94000, 82000, 106000⟩,
    /- de_h_cas_const -/ ⟨[100, 101, 95, 104, 95, 99, 97, 115, 95, 99, 111, 110, 115, 116], 65000, 42000, 88000⟩,
    /- de_vs_avg_mach_const -/ ⟨[100, 101, 95, 118, 115, 95, 97, 118, 103, 95, 109, 97, 99, 104, 95, 99, 111, 110, 115, 116], (-47800), (-112900), (-17900)⟩,
    /- de_vs_avg_cas_const -/ ⟨[100, 101, 95, 118, 115, 95, 97, 118, 103, 95, 99, 97, 115, 95, 99, 111, 110, 115, 116], (-89600), (-138700), (-41700)⟩,
    /- de_vs_avg_after_cas -/ ⟨[100, 101, 95, 118, 115, 95, 97, 118, 103, 95, 97, 102, 116, 101, 114, 95, 99, 97, 115], (-60200), (-76900), (-43500)⟩,
    /- fa_va_avg -/ ⟨[102, 97, 95, 118, 97, 95, 97, 118, 103], 780000, 720000, 830000⟩,
    /- fa_vs_avg -/ ⟨[102, 97, 95, 118, 115, 95, 97, 118, 103], (-39200), (-47200), (-31300)⟩,
    /- fa_agl -/ ⟨[102, 97, 95, 97, 103, 108], 30300, 24300, 36400⟩,
    /- ld_v_app -/ ⟨[108, 100, 95, 118, 95, 97, 112, 112], 768000, 705000, 832000⟩,
    /- ld_d_brk -/ ⟨[108, 100, 95, 100, 95, 98, 114, 107], 14500, 7000, 42200⟩,
    /- ld_acc_brk -/ ⟨[108, 100, 95, 97, 99, 99, 95, 98, 114, 107], (-13300), (-21200), (-5400)⟩]),
  /- b744 -/ ([98, 55, 52, 52], [
    /- to_v_lof -/ ⟨[116, 111, 95, 118, 95, 108, 111, 102], 924000, 793000, 1054000⟩,
    /- to_d_tof -/ ⟨[116, 111, 95, 100, 95, 116, 111, 102], 22900, 12700, 33100⟩,
    /- to_acc_tof -/ ⟨[116, 111, 95, 97, 99, 99, 95, 116, 111, 102], 16700, 12100, 21300⟩,
    /- ic_va_avg -/ ⟨[105, 99, 95, 118, 97, 95, 97, 118, 103], 910000, 820000, 1010000⟩,
    /- ic_vs_avg -/ ⟨[105, 99, 95, 118, 115, 95, 97, 118, 103], 92400, 67600, 137400⟩,
    /- cl_d_range -/ ⟨[99, 108, 95, 100, 95, 114, 97, 110, 103, 101], 2230000, 1750000, 3740000⟩,
    /- cl_v_cas_const -/ ⟨[99, 108, 95, 118, 95, 99, 97, 115, 95, 99, 111, 110, 115, 116], 1680000, 1570000, 1800000⟩,
    /- cl_v_mach_const -/ ⟨[99, 108, 95, 118, 95, 109, 97, 99, 104, 95, 99, 111, 110, 115, 116], 8400, 8100, 8700⟩,
    /- cl_h_cas_const -/ ⟨[99, 108, 95, 104, 95, 99, 97, 115, 95, 99, 111, 110, 115, 116], 39000, 22000, 56000⟩,
    /- cl_h_mach_const -/ ⟨[99, 108, 95, 104, 95, 109, 97, 99, 104, 95, 99, 111, 110, 115, 116], 83000, 76000, 97000⟩,
    /- cl_vs_avg_pre_cas -/ ⟨[99, 108, 95, 118, 115, 95, 97, 118, 103, 95, 112, 114, 101, 95, 99, 97, 115], 86600, 60000, 113300⟩,
    /- cl_vs_avg_cas_const -/ ⟨[99, 108, 95, 118, 115, 95, 97, 118, 103, 95, 99, 97, 115, 95, 99, 111, 110, 115, 116], 87700, 66500, 131100⟩,
    /- cl_vs_avg_mach_const -/ ⟨[99, 108, 95, 118, 115, 95, 97, 118, 103, 95, 109, 97, 99, 104, 95, 99, 111, 110, 115, 116], 67200, 40700, 93900⟩,
    /- cr_d_range -/ ⟨[99, 114, 95, 100, 95, 114, 97, 110, 103, 101], 55800000, (-15440000), 127250000⟩,
    /- cr_v_cas_mean -/ ⟨[99, 114, 95, 118, 95, 99, 97, 115, 95, 109, 101, 97, 110], 1460000, 1340000, 1580000⟩,
    /- cr_v_cas_max -/ ⟨[99, 114, 95, 118, 95, 99, 97, 115, 95, 109, 97, 120], 1570000, 1390000, 1740000⟩,
    /- cr_v_mach_mean -/ ⟨[99, 114, 95, 118, 95, 109, 97, 99, 104, 95, 109, 101, 97, 110], 8400, 8200, 8700⟩,
    /- cr_v_mach_max -/ ⟨[99, 114, 95, 118, 95, 109, 97, 99, 104, 95, 109, 97, 120], 8700, 8400, 9200⟩,
    /- cr_h_init -/ ⟨[99, 114, 95, 104, 95, 105, 110, 105, 116], 102800, 88700, 117000⟩,
    /- cr_h_mean -/ ⟨[99, 114, 95, 104, 95, 109, 101, 97, 110], 108100, 97700, 118400⟩,
    /- cr_h_max -/ ⟨[99, 114, 95, 104, 95, 109, 97, 120], 112900, 101700, 124000⟩,
    /- de_d_range -/ ⟨[100, 101, 95, 100, 95, 114, 97, 110, 103, 101], 2620000, 1950000, 5100000⟩,
    /- de_v_mach_const -/ ⟨[100, 101, 95, 118, 95, 109, 97, 99, 104, 95, 99, 111, 110, 115, 116], 8300, 7700, 8700⟩,
    /- de_v_cas_const -/ ⟨[100, 101, 95, 118, 95, 99, 97, 115, 95, 99, 111, 110, 115, 116], 1520000, 1390000, 1640000⟩,
    /- de_h_mach_const -/ ⟨[100, 101, 95, 104, 95, 109, 97, 99, 104, 95, 99, 111, 110, 115, 116], 100000, 87000, 113000⟩,
    /- de_h_cas_const -/ ⟨[100, 101, 95, 104, 95, 99, 97, 115, 95, 99, 111, 110, 115, 116], 66000, 40000, 92000⟩,
    /- de_vs_avg_mach_const -/ ⟨[100, 101, 95, 118, 115, 95, 97, 118, 103, 95, 109, 97, 99, 104, 95, 99, 111, 110, 115, 116], (-54300), (-123700), (-22000)⟩,
    /- de_vs_avg_cas_const -/ ⟨[100, 101, 95, 118, 115, 95, 97, 118, 103, 95, 99, 97, 115, 95, 99, 111, 110, 115, 116], (-91700), (-138500), (-44800)⟩,
    /- de_vs_avg_after_cas -/ ⟨[100, 101, 95, 118, 115, 95, 97, 118, 103, 95, 97, 102, 116, 101, 114, 95, 99, 97, 115], (-62900), (-80200), (-45500)⟩,
    /- fa_va_avg -/ ⟨[102, 97, 95, 118, 97, 95, 97, 118, 103], 790000, 720000, 850000⟩,
    /- fa_vs_avg -/ ⟨[102, 97, 95, 118, 115, 95, 97, 118, 103], (-40300), (-46000), (-30300)⟩,
    /- fa_agl -/ ⟨[102, 97, 95, 97, 103, 108], 29800, 23300, 36400⟩,
    /- ld_v_app -/ ⟨[108, 100, 95, 118, 95, 97, 112, 112], 779000, 710000, 849000⟩,
    /- ld_d_brk -/ ⟨[108, 100, 95, 100, 95, 98, 114, 107], 16400, 9300, 40600⟩,
    /- ld_acc_brk -/ ⟨[108, 100, 95, 97, 99, 99, 95, 98, 114, 107], (-11800), (-19800), (-6000)⟩]),
  /- b752 -/ ([98, 55, 53, 50], [
    /- to_v_lof -/ ⟨[116, 111, 95, 118, 95, 108, 111, 102], 905000, 768000, 1043000⟩,
    /- to_d_tof -/ ⟨[116, 111, 95, 100, 95, 116, 111, 102], 17000, 9800, 26600⟩,
    /- to_acc_tof -/ ⟨[116, 111, 95, 97, 99, 99, 95, 116, 111, 102], 19100, 14600, 23700⟩,
    /- ic_va_avg -/ ⟨[105, 99, 95, 118, 97, 95, 97, 118, 103], 880000, 780000, 980000⟩,
    /- ic_vs_avg -/ ⟨[105, 99, 95, 118, 115, 95, 97, 118, 103], 129900, 86000, 174000⟩,
    /- cl_d_range -/ ⟨[99, 108, 95, 100, 95, 114, 97, 110, 103, 101], 2200000, 1670000, 3840000⟩,
    /- cl_v_cas_const -/ ⟨[99, 108, 95, 118, 95, 99, 97, 115, 95, 99, 111, 110, 115, 116], 1550000, 1440000, 1660000⟩,
    /- cl_v_mach_const -/ ⟨[99, 108, 95, 118, 95, 109, 97, 99, 104, 95, 99, 111, 110, 115, 116], 7900, 7500, 8200⟩,
    /- cl_h_cas_const -/ ⟨[99, 108, 95, 104, 95, 99, 97, 115, 95, 99, 111, 110, 115, 116], 40000, 23000, 57000⟩,
    /- cl_h_mach_const -/ ⟨[99, 108, 95, 104, 95, 109, 97, 99, 104, 95, 99, 111, 110, 115, 116], 87000, 80000, 95000⟩,
    /- cl_vs_avg_pre_cas -/ ⟨[99, 108, 95, 118, 115, 95, 97, 118, 103, 95, 112, 114, 101, 95, 99, 97, 115], 102900, 78000, 128000⟩,
    /- cl_vs_avg_cas_const -/ ⟨[99, 108, 95, 118, 115, 95, 97, 118, 103, 95, 99, 97, 115, 95, 99, 111, 110, 115, 116], 89500, 64100, 115100⟩,
    /- cl_vs_avg_mach_const -/ ⟨[99, 108, 95, 118, 115, 95, 97, 118, 103, 95, 109, 97, 99, 104, 95, 99, 111, 110, 115, 116], 62300, 38000, 86700⟩,
    /- cr_d_range -/ ⟨[99, 114, 95, 100, 95, 114, 97, 110, 103, 101], 4970000, 5120000, 60870000⟩,
    /- cr_v_cas_mean -/ ⟨[99, 114, 95, 118, 95, 99, 97, 115, 95, 109, 101, 97, 110], 1310000, 1230000, 1450000⟩,
    /- cr_v_cas_max -/ ⟨[99, 114, 95, 118, 95, 99, 97, 115, 95, 109, 97, 120], 1380000, 1280000, 1590000⟩,
    /- cr_v_mach_mean -/ ⟨[99, 114, 95, 118, 95, 109, 97, 99, 104, 95, 109, 101, 97, 110], 7900, 7700, 8200⟩,
    /- cr_v_mach_max -/ ⟨[99, 114, 95, 118, 95, 109, 97, 99, 104, 95, 109, 97, 120], 8100, 7900, 8600⟩,
    /- cr_h_init -/ ⟨[99, 114, 95, 104, 95, 105, 110, 105, 116], 110000, 99600, 120500⟩,
    /- cr_h_mean -/ ⟨[99, 114, 95, 104, 95, 109, 101, 97, 110], 111700, 102800, 120700⟩,
    /- cr_h_max -/ ⟨[99, 114, 95, 104, 95, 109, 97, 120], 116400, 103900, 122200⟩,
    /- de_d_range -/ ⟨[100, 101, 95, 100, 95, 114, 97, 110, 103, 101], 2470000, 1780000, 5040000⟩,
    /- de_v_mach_const -/ ⟨[100, 101, 95, 118, 95, 109, 97, 99, 104, 95, 99, 111, 110, 115, 116], 7900, 7500, 8200⟩,
    /- de_v_cas_const -/ ⟨[100, 101, 95, 118, 95, 99, 97, 115, 95, 99, 111, 110, 115, 116], 1510000, 1370000, 1650000⟩,
    /- de_h_mach_const -/ ⟨[100, 101, 95, 104, 95, 109, 97, 99, 104, 95, 99, 111, 110, 115, 116], 94000, 80000, 108000⟩,
    /- de_h_cas_const -/ ⟨[100, 101, 95, 104, 95, 99, 97, 115, 95, 99, 111, 110, 115, 116], 63000, 39000, 88000⟩,
    /- de_vs_avg_mach_const -/ ⟨[100, 101, 95, 118, 115, 95, 97, 118, 103, 95, 109, 97, 99, 104, 95, 99, 111, 110, 115, 116], (-68000), (-126500), (-25200)⟩,
    /- de_vs_avg_cas_const -/ ⟨[100, 101, 95, 118, 115, 95, 97, 118, 103, 95, 99, 97, 115, 95, 99, 111, 110, 115, 116], (-95600), (-144600), (-46400)⟩,
    /- de_vs_avg_after_cas -/ ⟨[100, 101, 95, 118, 115, 95, 97, 118, 103, 95, 97, 102, 116, 101, 114, 95, 99, 97, 115], (-61600), (-79000), (-44100)⟩,
    /- fa_va_avg -/ ⟨[102, 97, 95, 118, 97, 95, 97, 118, 103], 690000, 620000, 760000⟩,
    /- fa_vs_avg -/ ⟨[102, 97, 95, 118, 115, 95, 97, 118, 103], (-34100), (-42000), (-26200)⟩,
    /- fa_agl -/ ⟨[102, 97, 95, 97, 103, 108], 30900, 22000, 39800⟩,
    /- ld_v_app -/ ⟨[108, 100, 95, 118, 95, 97, 112, 112], 667000, 602000, 732000⟩,
    /- ld_d_brk -/ ⟨[108, 100, 95, 100, 95, 98, 114, 107], 12100, 6800, 34300⟩,
    /- ld_acc_brk -/ ⟨[108, 100, 95, 97, 99, 99, 95, 98, 114, 107], (-10300), (-18500), (-4600)⟩])]

def wrap4 : List (Str × List WrapRow) := [
  /- b763 -/ ([98, 55, 54, 51], [
    /- to_v_lof -/ ⟨[116, 111, 95, 118, 95, 108, 111, 102], 924000, 796000, 1053000⟩,
    /- to_d_tof -/ ⟨[116, 111, 95, 100, 95, 116, 111, 102], 18200, 10300, 26100⟩,
    /- to_acc_tof -/ ⟨[116, 111, 95, 97, 99, 99, 95, 116, 111, 102], 19700, 14600, 24900⟩,
    /- ic_va_avg -/ ⟨[105, 99, 95, 118, 97, 95, 97, 118, 103], 880000, 800000, 960000⟩,
    /- ic_vs_avg -/ ⟨[105, 99, 95, 118, 115, 95, 97, 118, 103], 142800, 94500, 191200⟩,
    /- cl_d_range -/ ⟨[99, 108, 95, 100, 95, 114, 97, 110, 103, 101], 2020000, 1600000, 3380000⟩,
    /- cl_v_cas_const -/ ⟨[99, 108, 95, 118, 95, 99, 97, 115, 95, 99, 111, 110, 115, 116], 1590000, 1460000, 1710000⟩,
    /- cl_v_mach_const -/ ⟨[99, 108, 95, 118, 95, 109, 97, 99, 104, 95, 99, 111, 110, 115, 116], 7900, 7600, 8300⟩,
    /- cl_h_cas_const -/ ⟨[99, 108, 95, 104, 95, 99, 97, 115, 95, 99, 111, 110, 115, 116], 40000, 26000, 55000⟩,
    /- cl_h_mach_const -/ ⟨[99, 108, 95, 104, 95, 109, 97, 99, 104, 95, 99, 111, 110, 115, 116], 83000, 76000, 98000⟩,
    /- cl_vs_avg_pre_cas -/ ⟨[99, 108, 95, 118, 115, 95, 97, 118, 103, 95, 112, 114, 101, 95, 99, 97, 115], 101600, 72700, 130700⟩,
    /- cl_vs_avg_cas_const -/ ⟨[99, 108, 95, 118, 115, 95, 97, 118, 103, 95, 99, 97, 115, 95, 99, 111, 110, 115, 116], 102600, 70600, 134800⟩,
    /- cl_vs_avg_mach_const -/ ⟨[99, 108, 95, 118, 115, 95, 97, 118, 103, 95, 109, 97, 99, 104, 95, 99, 111, 110, 115, 116], 69500, 37600, 101600⟩,
    /- cr_d_range -/ ⟨[99, 114, 95, 100, 95, 114, 97, 110, 103, 101], 12010000, 5620000, 95440000⟩,
    /- cr_v_cas_mean -/ ⟨[99, 114, 95, 118, 95, 99, 97, 115, 95, 109, 101, 97, 110], 1370000, 1270000, 1480000⟩,
    /- cr_v_cas_max -/ ⟨[99, 114, 95, 118, 95, 99, 97, 115, 95, 109, 97, 120], 1420000, 1320000, 1650000⟩,
    /- cr_v_mach_mean -/ ⟨[99, 114, 95, 118, 95, 109, 97, 99, 104, 95, 109, 101, 97, 110], 8000, 7700, 8300⟩,
    /- cr_v_mach_max -/ ⟨[99, 114, 95, 118, 95, 109, 97, 99, 104, 95, 109, 97, 120], 8200, 7900, 8700⟩,
    /- cr_h_init -/ ⟨[99, 114, 95, 104, 95, 105, 110, 105, 116], 106500, 91100, 117500⟩,
    /- cr_h_mean -/ ⟨[99, 114, 95, 104, 95, 109, 101, 97, 110], 108100, 99000, 117300⟩,
    /- cr_h_max -/ ⟨[99, 114, 95, 104, 95, 109, 97, 120], 111700, 103000, 120400⟩,
    /- de_d_range -/ ⟨[100, 101, 95, 100, 95, 114, 97, 110, 103, 101], 2440000, 1780000, 4890000⟩,
    /- de_v_mach_const -/ ⟨[100, 101, 95, 118, 95, 109, 97, 99, 104, 95, 99, 111, 110, 115, 116], 7900, 7600, 8300⟩,
    /- de_v_cas_const -/ ⟨[100, 101, 95, 118, 95, 99, 97, 115, 95, 99, 111, 110, 115, 116], 1510000, 1390000, 1640000⟩,
    /- de_h_mach_const -/ ⟨[100, 101, 95, 104, 95, 109, 97, 99, 104, 95, 99, 111, 110, 115, 116], 95000, 83000, 108000⟩,
    /- de_h_cas_const -/ ⟨[100, 101, 95, 104, 95, 99, 97, 115, 95, 99, 111, 110, 115, 116], 67000, 44000, 90000⟩,
    /- de_vs_avg_mach_const -/ ⟨[100, 101, 95, 118, 115, 95, 97, 118, 103, 95, 109, 97, 99, 104, 95, 99, 111, 110, 115, 116], (-62900), (-132000), (-23300)⟩,
    /- de_vs_avg_cas_const -/ ⟨[100, 101, 95, 118, 115, 95, 97, 118, 103, 95, 99, 97, 115, 95, 99, 111, 110, 115, 116], (-99800), (-149900), (-49400)⟩,
    /- de_vs_avg_after_cas -/ ⟨[100, 101, 95, 118, 115, 95, 97, 118, 103, 95, 97, 102, 116, 101, 114, 95, 99, 97, 115], (-62900), (-79900), (-45800)⟩,
    /- fa_va_avg -/ ⟨[102, 97, 95, 118, 97, 95, 97, 118, 103], 740000, 680000, 800000⟩,
    /- fa_vs_avg -/ ⟨[102, 97, 95, 118, 115, 95, 97, 118, 103], (-37600), (-43700), (-27500)⟩,
    /- fa_agl -/ ⟨[102, 97, 95, 97, 103, 108], 29800, 22200, 37400⟩,
    /- ld_v_app -/ ⟨[108, 100, 95, 118, 95, 97, 112, 112], 721000, 653000, 789000⟩,
    /- ld_d_brk -/ ⟨[108, 100, 95, 100, 95, 98, 114, 107], 15100, 6600, 37100⟩,
    /- ld_acc_brk -/ ⟨[108, 100, 95, 97, 99, 99, 95, 98, 114, 107], (-11000), (-19400), (-5200)⟩]),
  /- b77w -/ ([98, 55, 55, 119], [
    /- to_v_lof -/ ⟨[116, 111, 95, 118, 95, 108, 111, 102], 964000, 839000, 1090000⟩,
    /- to_d_tof -/ ⟨[116, 111, 95, 100, 95, 116, 111, 102], 22100, 13800, 30400⟩,
    /- to_acc_tof -/ ⟨[116, 111, 95, 97, 99, 99, 95, 116, 111, 102], 18900, 14500, 23300⟩,
    /- ic_va_avg -/ ⟨[105, 99, 95, 118, 97, 95, 97, 118, 103], 980000, 880000, 1060000⟩,
    /- ic_vs_avg -/ ⟨[105, 99, 95, 118, 115, 95, 97, 118, 103], 130200, 96900, 163600⟩,
    /- cl_d_range -/ ⟨[99, 108, 95, 100, 95, 114, 97, 110, 103, 101], 2140000, 1730000, 3540000⟩,
    /- cl_v_cas_const -/ ⟨[99, 108, 95, 118, 95, 99, 97, 115, 95, 99, 111, 110, 115, 116], 1640000, 1580000, 1700000⟩,
    /- cl_v_mach_const -/ ⟨[99, 108, 95, 118, 95, 109, 97, 99, 104, 95, 99, 111, 110, 115, 116], 8300, 8000, 8600⟩,
    /- cl_h_cas_const -/ ⟨[99, 108, 95, 104, 95, 99, 97, 115, 95, 99, 111, 110, 115, 116], 38000, 18000, 59000⟩,
    /- cl_h_mach_const -/ ⟨[99, 108, 95, 104, 95, 109, 97, 99, 104, 95, 99, 111, 110, 115, 116], 88000, 81000, 95000⟩,
    /- cl_vs_avg_pre_cas -/ ⟨[99, 108, 95, 118, 115, 95, 97, 118, 103, 95, 112, 114, 101, 95, 99, 97, 115], 89900, 68000, 111900⟩,
    /- cl_vs_avg_cas_const -/ ⟨[99, 108, 95, 118, 115, 95, 97, 118, 103, 95, 99, 97, 115, 95, 99, 111, 110, 115, 116], 85500, 64100, 129500⟩,
    /- cl_vs_avg_mach_const -/ ⟨[99, 108, 95, 118, 115, 95, 97, 118, 103, 95, 109, 97, 99, 104, 95, 99, 111, 110, 115, 116], 57600, 33100, 108100⟩,
    /- cr_d_range -/ ⟨[99, 114, 95, 100, 95, 114, 97, 110, 103, 101], 48430000, 7580000, 141770000⟩,
    /- cr_v_cas_mean -/ ⟨[99, 114, 95, 118, 95, 99, 97, 115, 95, 109, 101, 97, 110], 1480000, 1390000, 1580000⟩,
    /- cr_v_cas_max -/ ⟨[99, 114, 95, 118, 95, 99, 97, 115, 95, 109, 97, 120], 1590000, 1420000, 1750000⟩,
    /- cr_v_mach_mean -/ ⟨[99, 114, 95, 118, 95, 109, 97, 99, 104, 95, 109, 101, 97, 110], 8400, 8200, 8600⟩,
    /- cr_v_mach_max -/ ⟨[99, 114, 95, 118, 95, 109, 97, 99, 104, 95, 109, 97, 120], 8600, 8400, 9100⟩,
    /- cr_h_init -/ ⟨[99, 114, 95, 104, 95, 105, 110, 105, 116], 96300, 87400, 115200⟩,
    /- cr_h_mean -/ ⟨[99, 114, 95, 104, 95, 109, 101, 97, 110], 103500, 97500, 114000⟩,
    /- cr_h_max -/ ⟨[99, 114, 95, 104, 95, 109, 97, 120], 110000, 103100, 116900⟩,
    /- de_d_range -/ ⟨[100, 101, 95, 100, 95, 114, 97, 110, 103, 101], 2570000, 1970000, 4760000⟩,
    /- de_v_mach_const -/ ⟨[100, 101, 95, 118, 95, 109, 97, 99, 104, 95, 99, 111, 110, 115, 116], 8200, 7900, 8600⟩,
    /- de_v_cas_const -/ ⟨[100, 101, 95, 118, 95, 99, 97, 115, 95, 99, 111, 110, 115, 116], 1560000, 1400000, 1670000⟩,
    /- de_h_mach_const -/ ⟨[100, 101, 95, 104, 95, 109, 97, 99, 104, 95, 99, 111, 110, 115, 116], 97000, 86000, 108000⟩,
    /- de_h_cas_const -/ ⟨[100, 101, 95, 104, 95, 99, 97, 115, 95, 99, 111, 110, 115, 116], 67000, 42000, 92000⟩,
    /- de_vs_avg_mach_const -/ ⟨[100, 101, 95, 118, 115, 95, 97, 118, 103, 95, 109, 97, 99, 104, 95, 99, 111, 110, 115, 116], (-70400), (-120300), (-20200)⟩,
    /- de_vs_avg_cas_const -/ ⟨[100, 101, 95, 118, 115, 95, 97, 118, 103, 95, 99, 97, 115, 95, 99, 111, 110, 115, 116], (-90500), (-133600), (-47200)⟩,
    /- de_vs_avg_after_cas -/ ⟨[100, 101, 95, 118, 115, 95, 97, 118, 103, 95, 97, 102, 116, 101, 114, 95, 99, 97, 115], (-63000), (-79200), (-46700)⟩,
    /- fa_va_avg -/ ⟨[102, 97, 95, 118, 97, 95, 97, 118, 103], 780000, 730000, 830000⟩,
    /- fa_vs_avg -/ ⟨[102, 97, 95, 118, 115, 95, 97, 118, 103], (-40300), (-44900), (-32700)⟩,
    /- fa_agl -/ ⟨[102, 97, 95, 97, 103, 108], 29500, 24400, 34600⟩,
    /- ld_v_app -/ ⟨[108, 100, 95, 118, 95, 97, 112, 112], 769000, 708000, 831000⟩,
    /- ld_d_brk -/ ⟨[108, 100, 95, 100, 95, 98, 114, 107], 14900, 8400, 35200⟩,
    /- ld_acc_brk -/ ⟨[108, 100, 95, 97, 99, 99, 95, 98, 114, 107], (-13300), (-20000), (-6600)⟩]),
  /- b788 -/ ([98, 55, 56, 56], [
    /- to_v_lof -/ ⟨[116, 111, 95, 118, 95, 108, 111, 102], 903000, 744000, 1063000⟩,
    /- to_d_tof -/ ⟨[116, 111, 95, 100, 95, 116, 111, 102], 21600, 10800, 32500⟩,
    /- to_acc_tof -/ ⟨[116, 111, 95, 97, 99, 99, 95, 116, 111, 102], 16100, 11600, 20700⟩,
    /- ic_va_avg -/ ⟨[105, 99, 95, 118, 97, 95, 97, 118, 103], 870000, 780000, 970000⟩,
    /- ic_vs_avg -/ ⟨[105, 99, 95, 118, 115, 95, 97, 118, 103], 106500, 62700, 144500⟩,
    /- cl_d_range -/ ⟨[99, 108, 95, 100, 95, 114, 97, 110, 103, 101], 2860000, 1460000, 4270000⟩,
    /- cl_v_cas_const -/ ⟨[99, 108, 95, 118, 95, 99, 97, 115, 95, 99, 111, 110, 115, 116], 1580000, 1460000, 1700000⟩,
    /- cl_v_mach_const -/ ⟨[99, 108, 95, 118, 95, 109, 97, 99, 104, 95, 99, 111, 110, 115, 116], 8500, 8100, 8700⟩,
    /- cl_h_cas_const -/ ⟨[99, 108, 95, 104, 95, 99, 97, 115, 95, 99, 111, 110, 115, 116], 38000, 25000, 63000⟩,
    /- cl_h_mach_const -/ ⟨[99, 108, 95, 104, 95, 109, 97, 99, 104, 95, 99, 111, 110, 115, 116], 95000, 84000, 106000⟩,
    /- cl_vs_avg_pre_cas -/ ⟨[99, 108, 95, 118, 115, 95, 97, 118, 103, 95, 112, 114, 101, 95, 99, 97, 115], 95800, 73200, 118500⟩,
    /- cl_vs_avg_cas_const -/ ⟨[99, 108, 95, 118, 115, 95, 97, 118, 103, 95, 99, 97, 115, 95, 99, 111, 110, 115, 116], 90200, 61200, 119300⟩,
    /- cl_vs_avg_mach_const -/ ⟨[99, 108, 95, 118, 115, 95, 97, 118, 103, 95, 109, 97, 99, 104, 95, 99, 111, 110, 115, 116], 60200, 35900, 84700⟩,
    /- cr_d_range -/ ⟨[99, 114, 95, 100, 95, 114, 97, 110, 103, 101], 18740000, 2690000, 116190000⟩,
    /- cr_v_cas_mean -/ ⟨[99, 114, 95, 118, 95, 99, 97, 115, 95, 109, 101, 97, 110], 1320000, 1260000, 1460000⟩,
    /- cr_v_cas_max -/ ⟨[99, 114, 95, 118, 95, 99, 97, 115, 95, 109, 97, 120], 1390000, 1300000, 1640000⟩,
    /- cr_v_mach_mean -/ ⟨[99, 114, 95, 118, 95, 109, 97, 99, 104, 95, 109, 101, 97, 110], 8500, 8300, 8700⟩,
    /- cr_v_mach_max -/ ⟨[99, 114, 95, 118, 95, 109, 97, 99, 104, 95, 109, 97, 120], 8700, 8500, 9100⟩,
    /- cr_h_init -/ ⟨[99, 114, 95, 104, 95, 105, 110, 105, 116], 116500, 103700, 129200⟩,
    /- cr_h_mean -/ ⟨[99, 114, 95, 104, 95, 109, 101, 97, 110], 120100, 111600, 128500⟩,
    /- cr_h_max -/ ⟨[99, 114, 95, 104, 95, 109, 97, 120], 122800, 115200, 130600⟩,
    /- de_d_range -/ ⟨[100, 101, 95, 100, 95, 114, 97, 110, 103, 101], 2920000, 2190000, 5510000⟩,
    /- de_v_mach_const -/ ⟨[100, 101, 95, 118, 95, 109, 97, 99, 104, 95, 99, 111, 110, 115, 116], 8400, 8000, 8700⟩,
    /- de_v_cas_const -/ ⟨[100, 101, 95, 118, 95, 99, 97, 115, 95, 99, 111, 110, 115, 116], 1530000, 1400000, 1670000⟩,
    /- de_h_mach_const -/ ⟨[100, 101, 95, 104, 95, 109, 97, 99, 104, 95, 99, 111, 110, 115, 116], 105000, 88000, 117000⟩,
    /- de_h_cas_const -/ ⟨[100, 101, 95, 104, 95, 99, 97, 115, 95, 99, 111, 110, 115, 116], 70000, 44000, 97000⟩,
    /- de_vs_avg_mach_const -/ ⟨[100, 101, 95, 118, 115, 95, 97, 118, 103, 95, 109, 97, 99, 104, 95, 99, 111, 110, 115, 116], (-75900), (-141600), (-33500)⟩,
    /- de_vs_avg_cas_const -/ ⟨[100, 101, 95, 118, 115, 95, 97, 118, 103, 95, 99, 97, 115, 95, 99, 111, 110, 115, 116], (-95200), (-139100), (-51100)⟩,
    /- de_vs_avg_after_cas -/ ⟨[100, 101, 95, 118, 115, 95, 97, 118, 103, 95, 97, 102, 116, 101, 114, 95, 99, 97, 115], (-62000), (-79400), (-44500)⟩,
    /- fa_va_avg -/ ⟨[102, 97, 95, 118, 97, 95, 97, 118, 103], 750000, 700000, 800000⟩,
    /- fa_vs_avg -/ ⟨[102, 97, 95, 118, 115, 95, 97, 118, 103], (-39900), (-45900), (-31100)⟩,
    /- fa_agl -/ ⟨[102, 97, 95, 97, 103, 108], 28800, 23700, 34000⟩,
    /- ld_v_app -/ ⟨[108, 100, 95, 118, 95, 97, 112, 112], 713000, 620000, 806000⟩,
    /- ld_d_brk -/ ⟨[108, 100, 95, 100, 95, 98, 114, 107], 20800, 4500, 37100⟩,
    /- ld_acc_brk -/ ⟨[108, 100, 95, 97, 99, 99, 95, 98, 114, 107], (-11200), (-17900), (-4600)⟩])]

def wrap5 : List (Str × List WrapRow) := [
  /- b789 -/ ([98, 55, 56, 57], [
    /- to_v_lof -/ ⟨[116, 111, 95, 118, 95, 108, 111, 102], 961000, 811000, 1112000⟩,
    /- to_d_tof -/ ⟨[116, 111, 95, 100, 95, 116, 111, 102], 24900, 13100, 36900⟩,
    /- to_acc_tof -/ ⟨[116, 111, 95, 97, 99, 99, 95, 116, 111, 102], 16300, 12000, 20600⟩,
    /- ic_va_avg -/ ⟨[105, 99, 95, 118, 97, 95, 97, 118, 103], 920000, 810000, 1030000⟩,
    /- ic_vs_avg -/ ⟨[105, 99, 95, 118, 115, 95, 97, 118, 103], 106000, 64800, 147400⟩,
    /- cl_d_range -/ ⟨[99, 108, 95, 100, 95, 114, 97, 110, 103, 101], 2630000, 1730000, 4200000⟩,
    /- cl_v_cas_const -/ ⟨[99, 108, 95, 118, 95, 99, 97, 115, 95, 99, 111, 110, 115, 116], 1630000, 1510000, 1740000⟩,
    /- cl_v_mach_const -/ ⟨[99, 108, 95, 118, 95, 109, 97, 99, 104, 95, 99, 111, 110, 115, 116], 8400, 8200, 8700⟩,
    /- cl_h_cas_const -/ ⟨[99, 108, 95, 104, 95, 99, 97, 115, 95, 99, 111, 110, 115, 116], 41000, 23000, 59000⟩,
    /- cl_h_mach_const -/ ⟨[99, 108, 95, 104, 95, 109, 97, 99, 104, 95, 99, 111, 110, 115, 116], 91000, 81000, 102000⟩,
    /- cl_vs_avg_pre_cas -/ ⟨[99, 108, 95, 118, 115, 95, 97, 118, 103, 95, 112, 114, 101, 95, 99, 97, 115], 94600, 71800, 117500⟩,
    /- cl_vs_avg_cas_const -/ ⟨[99, 108, 95, 118, 115, 95, 97, 118, 103, 95, 99, 97, 115, 95, 99, 111, 110, 115, 116], 86800, 60400, 118100⟩,
    /- cl_vs_avg_mach_const -/ ⟨[99, 108, 95, 118, 115, 95, 97, 118, 103, 95, 109, 97, 99, 104, 95, 99, 111, 110, 115, 116], 60500, 36300, 84700⟩,
    /- cr_d_range -/ ⟨[99, 114, 95, 100, 95, 114, 97, 110, 103, 101], 56950000, (-31400000), 145550000⟩,
    /- cr_v_cas_mean -/ ⟨[99, 114, 95, 118, 95, 99, 97, 115, 95, 109, 101, 97, 110], 1390000, 1290000, 1490000⟩,
    /- cr_v_cas_max -/ ⟨[99, 114, 95, 118, 95, 99, 97, 115, 95, 109, 97, 120], 1480000, 1330000, 1700000⟩,
    /- cr_v_mach_mean -/ ⟨[99, 114, 95, 118, 95, 109, 97, 99, 104, 95, 109, 101, 97, 110], 8500, 8300, 8700⟩,
    /- cr_v_mach_max -/ ⟨[99, 114, 95, 118, 95, 109, 97, 99, 104, 95, 109, 97, 120], 8700, 8500, 9200⟩,
    /- cr_h_init -/ ⟨[99, 114, 95, 104, 95, 105, 110, 105, 116], 113000, 94200, 124400⟩,
    /- cr_h_mean -/ ⟨[99, 114, 95, 104, 95, 109, 101, 97, 110], 115800, 107200, 124400⟩,
    /- cr_h_max -/ ⟨[99, 114, 95, 104, 95, 109, 97, 120], 119900, 112800, 127000⟩,
    /- de_d_range -/ ⟨[100, 101, 95, 100, 95, 114, 97, 110, 103, 101], 2930000, 2240000, 5500000⟩,
    /- de_v_mach_const -/ ⟨[100, 101, 95, 118, 95, 109, 97, 99, 104, 95, 99, 111, 110, 115, 116], 8400, 7900, 8700⟩,
    /- de_v_cas_const -/ ⟨[100, 101, 95, 118, 95, 99, 97, 115, 95, 99, 111, 110, 115, 116], 1540000, 1390000, 1690000⟩,
    /- de_h_mach_const -/ ⟨[100, 101, 95, 104, 95, 109, 97, 99, 104, 95, 99, 111, 110, 115, 116], 105000, 86000, 116000⟩,
    /- de_h_cas_const -/ ⟨[100, 101, 95, 104, 95, 99, 97, 115, 95, 99, 111, 110, 115, 116], 70000, 43000, 96000⟩,
    /- de_vs_avg_mach_const -/ ⟨[100, 101, 95, 118, 115, 95, 97, 118, 103, 95, 109, 97, 99, 104, 95, 99, 111, 110, 115, 116], (-71600), (-128800), (-28100)⟩,
    /- de_vs_avg_cas_const -/ ⟨[100, 101, 95, 118, 115, 95, 97, 118, 103, 95, 99, 97, 115, 95, 99, 111, 110, 115, 116], (-91400), (-134100), (-48400)⟩,
    /- de_vs_avg_after_cas -/ ⟨[100, 101, 95, 118, 115, 95, 97, 118, 103, 95, 97, 102, 116, 101, 114, 95, 99, 97, 115], (-61900), (-79100), (-44600)⟩,
    /- fa_va_avg -/ ⟨[102, 97, 95, 118, 97, 95, 97, 118, 103], 770000, 720000, 830000⟩,
    /- fa_vs_avg -/ ⟨[102, 97, 95, 118, 115, 95, 97, 118, 103], (-41500), (-47100), (-31500)⟩,
    /- fa_agl -/ ⟨[102, 97, 95, 97, 103, 108], 28900, 23600, 34300⟩,
    /- ld_v_app -/ ⟨[108, 100, 95, 118, 95, 97, 112, 112], 740000, 648000, 833000⟩,
    /- ld_d_brk -/ ⟨[108, 100, 95, 100, 95, 98, 114, 107], 24900, 6800, 43100⟩,
    /- ld_acc_brk -/ ⟨[108, 100, 95, 97, 99, 99, 95, 98, 114, 107], (-11100), (-17400), (-4700)⟩]),
  /- e190 -/ ([101, 49, 57, 48], [
    /- to_v_lof -/ ⟨[116, 111, 95, 118, 95, 108, 111, 102], 881000, 787000, 975000⟩,
    /- to_d_tof -/ ⟨[116, 111, 95, 100, 95, 116, 111, 102], 18000, 11900, 24200⟩,
    /- to_acc_tof -/ ⟨[116, 111, 95, 97, 99, 99, 95, 116, 111, 102], 18300, 13800, 22800⟩,
    /- ic_va_avg -/ ⟨[105, 99, 95, 118, 97, 95, 97, 118, 103], 780000, 660000, 910000⟩,
    /- ic_vs_avg -/ ⟨[105, 99, 95, 118, 115, 95, 97, 118, 103], 111900, 57800, 166200⟩,
    /- cl_d_range -/ ⟨[99, 108, 95, 100, 95, 114, 97, 110, 103, 101], 2150000, 1620000, 3890000⟩,
    /- cl_v_cas_const -/ ⟨[99, 108, 95, 118, 95, 99, 97, 115, 95, 99, 111, 110, 115, 116], 1400000, 1330000, 1560000⟩,
    /- cl_v_mach_const -/ ⟨[99, 108, 95, 118, 95, 109, 97, 99, 104, 95, 99, 111, 110, 115, 116], 7500, 7100, 8000⟩,
    /- cl_h_cas_const -/ ⟨[99, 108, 95, 104, 95, 99, 97, 115, 95, 99, 111, 110, 115, 116], 30000, 18000, 65000⟩,
    /- cl_h_mach_const -/ ⟨[99, 108, 95, 104, 95, 109, 97, 99, 104, 95, 99, 111, 110, 115, 116], 92000, 81000, 102000⟩,
    /- cl_vs_avg_pre_cas -/ ⟨[99, 108, 95, 118, 115, 95, 97, 118, 103, 95, 112, 114, 101, 95, 99, 97, 115], 104400, 71800, 137100⟩,
    /- cl_vs_avg_cas_const -/ ⟨[99, 108, 95, 118, 115, 95, 97, 118, 103, 95, 99, 97, 115, 95, 99, 111, 110, 115, 116], 89300, 62700, 116000⟩,
    /- cl_vs_avg_mach_const -/ ⟨[99, 108, 95, 118, 115, 95, 97, 118, 103, 95, 109, 97, 99, 104, 95, 99, 111, 110, 115, 116], 48200, 29500, 67000⟩,
    /- cr_d_range -/ ⟨[99, 114, 95, 100, 95, 114, 97, 110, 103, 101], 7340000, 4640000, 27100000⟩,
    /- cr_v_cas_mean -/ ⟨[99, 114, 95, 118, 95, 99, 97, 115, 95, 109, 101, 97, 110], 1310000, 1200000, 1410000⟩,
    /- cr_v_cas_max -/ ⟨[99, 114, 95, 118, 95, 99, 97, 115, 95, 109, 97, 120], 1370000, 1240000, 1500000⟩,
    /- cr_v_mach_mean -/ ⟨[99, 114, 95, 118, 95, 109, 97, 99, 104, 95, 109, 101, 97, 110], 7700, 7400, 8100⟩,
    /- cr_v_mach_max -/ ⟨[99, 114, 95, 118, 95, 109, 97, 99, 104, 95, 109, 97, 120], 7900, 7600, 8500⟩,
    /- cr_h_init -/ ⟨[99, 114, 95, 104, 95, 105, 110, 105, 116], 109900, 99900, 120000⟩,
    /- cr_h_mean -/ ⟨[99, 114, 95, 104, 95, 109, 101, 97, 110], 110500, 100500, 120500⟩,
    /- cr_h_max -/ ⟨[99, 114, 95, 104, 95, 109, 97, 120], 111600, 102100, 121300⟩,
    /- de_d_range -/ ⟨[100, 101, 95, 100, 95, 114, 97, 110, 103, 101], 2530000, 1710000, 4250000⟩,
    /- de_v_mach_const -/ ⟨[100, 101, 95, 118, 95, 109, 97, 99, 104, 95, 99, 111, 110, 115, 116], 7700, 7200, 8100⟩,
    /- de_v_cas_const -/ ⟨[100, 101, 95, 118, 95, 99, 97, 115, 95, 99, 111, 110, 115, 116], 1480000, 1340000, 1590000⟩,
    /- de_h_mach_const -/ ⟨[100, 101, 95, 104, 95, 109, 97, 99, 104, 95, 99, 111, 110, 115, 116], 93000, 80000, 106000⟩,
    /- de_h_cas_const -/ ⟨[100, 101, 95, 104, 95, 99, 97, 115, 95, 99, 111, 110, 115, 116], 54000, 26000, 82000⟩,
    /- de_vs_avg_mach_const -/ ⟨[100, 101, 95, 118, 115, 95, 97, 118, 103, 95, 109, 97, 99, 104, 95, 99, 111, 110, 115, 116], (-52500), (-117900), (-21000)⟩,
    /- de_vs_avg_cas_const -/ ⟨[100, 101, 95, 118, 115, 95, 97, 118, 103, 95, 99, 97, 115, 95, 99, 111, 110, 115, 116], (-90800), (-132900), (-48500)⟩,
    /- de_vs_avg_after_cas -/ ⟨[100, 101, 95, 118, 115, 95, 97, 118, 103, 95, 97, 102, 116, 101, 114, 95, 99, 97, 115], (-59000), (-79200), (-38800)⟩,
    /- fa_va_avg -/ ⟨[102, 97, 95, 118, 97, 95, 97, 118, 103], 700000, 640000, 760000⟩,
    /- fa_vs_avg -/ ⟨[102, 97, 95, 118, 115, 95, 97, 118, 103], (-35700), (-43400), (-28100)⟩,
    /- fa_agl -/ ⟨[102, 97, 95, 97, 103, 108], 29200, 23800, 34600⟩,
    /- ld_v_app -/ ⟨[108, 100, 95, 118, 95, 97, 112, 112], 669000, 566000, 772000⟩,
    /- ld_d_brk -/ ⟨[108, 100, 95, 100, 95, 98, 114, 107], 21000, 7000, 35200⟩,
    /- ld_acc_brk -/ ⟨[108, 100, 95, 97, 99, 99, 95, 98, 114, 107], (-10800), (-18000), (-3600)⟩])]

/-- All 17 files `data/wrap/*.txt`, by name. -/
def wrap : List (Str × List WrapRow) := wrap0 ++ wrap1 ++ wrap2 ++ wrap3 ++ wrap4 ++ wrap5

/-- `data/wrap/_synonym.csv`. -/
def wrapSyn : List (Str × Str) := [
  /- a124 b744 -/ ([97, 49, 50, 52], [98, 55, 52, 52]),
  /- a19n a320 -/ ([97, 49, 57, 110], [97, 51, 50, 48]),
  /- a20n a320 -/ ([97, 50, 48, 110], [97, 51, 50, 48]),
  /- a21n a320 -/ ([97, 50, 49, 110], [97, 51, 50, 48]),
  /- a306 a332 -/ ([97, 51, 48, 54], [97, 51, 51, 50]),
  /- a310 a319 -/ ([97, 51, 49, 48], [97, 51, 49, 57]),
  /- a318 a319 -/ ([97, 51, 49, 56], [97, 51, 49, 57]),
  /- a359 b789 -/ ([97, 51, 53, 57], [98, 55, 56, 57]),
  /- at72 e190 -/ ([97, 116, 55, 50], [101, 49, 57, 48]),
  /- at75 e190 -/ ([97, 116, 55, 53], [101, 49, 57, 48]),
  /- at76 e190 -/ ([97, 116, 55, 54], [101, 49, 57, 48]),
  /- b37m b737 -/ ([98, 51, 55, 109], [98, 55, 51, 55]),
  /- b38m b737 -/ ([98, 51, 56, 109], [98, 55, 51, 55]),
  /- b39m b737 -/ ([98, 51, 57, 109], [98, 55, 51, 55]),
  /- b3xm b737 -/ ([98, 51, 120, 109], [98, 55, 51, 55]),
  /- b733 b737 -/ ([98, 55, 51, 51], [98, 55, 51, 55]),
  /- b734 b737 -/ ([98, 55, 51, 52], [98, 55, 51, 55]),
  /- b735 b737 -/ ([98, 55, 51, 53], [98, 55, 51, 55]),
  /- b748 b744 -/ ([98, 55, 52, 56], [98, 55, 52, 52]),
  /- b762 b752 -/ ([98, 55, 54, 50], [98, 55, 53, 50]),
  /- b772 b77w -/ ([98, 55, 55, 50], [98, 55, 55, 119]),
  /- b773 b77w -/ ([98, 55, 55, 51], [98, 55, 55, 119]),
  /- b77l b77w -/ ([98, 55, 55, 108], [98, 55, 55, 119]),
  /- c25a e190 -/ ([99, 50, 53, 97], [101, 49, 57, 48]),
  /- c525 e190 -/ ([99, 53, 50, 53], [101, 49, 57, 48]),
  /- c550 e190 -/ ([99, 53, 53, 48], [101, 49, 57, 48]),
  /- c56x e190 -/ ([99, 53, 54, 120], [101, 49, 57, 48]),
  /- crj2 e190 -/ ([99, 114, 106, 50], [101, 49, 57, 48]),
  /- crj9 e190 -/ ([99, 114, 106, 57], [101, 49, 57, 48]),
  /- e145 e190 -/ ([101, 49, 52, 53], [101, 49, 57, 48]),
  /- e170 e190 -/ ([101, 49, 55, 48], [101, 49, 57, 48]),
  /- e75l e190 -/ ([101, 55, 53, 108], [101, 49, 57, 48]),
  /- e195 e190 -/ ([101, 49, 57, 53], [101, 49, 57, 48]),
  /- e290 e190 -/ ([101, 50, 57, 48], [101, 49, 57, 48]),
  /- glf5 e190 -/ ([103, 108, 102, 53], [101, 49, 57, 48]),
  /- gl5t e190 -/ ([103, 108, 53, 116], [101, 49, 57, 48]),
  /- glf6 e190 -/ ([103, 108, 102, 54], [101, 49, 57, 48]),
  /- lj45 e190 -/ ([108, 106, 52, 53], [101, 49, 57, 48]),
  /- md11 b77w -/ ([109, 100, 49, 49], [98, 55, 55, 119]),
  /- pc24 e190 -/ ([112, 99, 50, 52], [101, 49, 57, 48]),
  /- su95 e190 -/ ([115, 117, 57, 53], [101, 49, 57, 48])]

end Verif.Data

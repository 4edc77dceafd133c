import Verif.Model.Table1
import Verif.Model.Table2
import Verif.Model.Table3
import Verif.Model.Table4
import Verif.Model.Table5
import Verif.Model.Table6
/-!
Generated by tools/gen_database.py. Do not edit.
-/
namespace Uecho.Table

/-- The objects added by `StandardDatabase::init_objects` (src/database_mra_objects.rs:79-36036), in order. -/
def classes : List ClassDef := [
  class_0000, class_0EF0, class_02A6, class_05FD, class_0272, class_03CE,
  class_00D0, class_0602, class_027E, class_0157, class_0012, class_0291,
  class_0287, class_026B, class_0290, class_027D, class_0156, class_03BB,
  class_028A, class_03B9, class_001D, class_0273, class_03D4, class_02A7,
  class_027C, class_0002, class_0281, class_0130, class_0022, class_03D3,
  class_028F, class_0263, class_001B, class_0023, class_02A1, class_0280,
  class_0003, class_0279, class_027B, class_0016, class_027A, class_028D,
  class_0260, class_02A3, class_0133, class_028E, class_026F, class_0282,
  class_0134, class_05FF, class_02A4, class_0011, class_0007, class_03B7,
  class_02A5, class_0135, class_0288]

/-- The manufacturers added by `StandardDatabase::init_manufactures` (src/database_manufacturers.rs:26-365), in order. -/
def manufacturers : List Manufacture := [
  ⟨0x000133, "afterFIT Co., Ltd."⟩,
  ⟨0x00002F, "AIPHONE CO., LTD."⟩,
  ⟨0x00011A, "ACCESS CO.,LTD."⟩,
  ⟨0x00002C, "AFT CO.,LTD"⟩,
  ⟨0x000068, "AISIN CORPORATION"⟩,
  ⟨0x000079, "Anritsu Engineering Co.,Ltd,"⟩,
  ⟨0x00007F, "ANRITSU CUSTOMER SUPPORT CO., LTD."⟩,
  ⟨0x000110, "ASUKA SOLUTION COMPANY LIMITED"⟩,
  ⟨0x000096, "Azbil Corporation"⟩,
  ⟨0x0000FD, "Bellnix Co.,LTD"⟩,
  ⟨0x0000CC, "Bosch Home Comfort Japan, Inc."⟩,
  ⟨0x00006F, "BUFFALO INC."⟩,
  ⟨0x0000B6, "Bunka Shutter Co., Ltd"⟩,
  ⟨0x000017, "Carrier Japan Corporation"⟩,
  ⟨0x0000D2, "CHOFUKOSAN.Co.Ltd"⟩,
  ⟨0x000088, "CHOFU SEISAKUSHO CO.,LTD."⟩,
  ⟨0x0000D5, "Choshu Industry Co., Ltd."⟩,
  ⟨0x0000A3, "Chubu Electric Power Grid Co.,Inc."⟩,
  ⟨0x000136, "Chuo Bussan Co.,Ltd."⟩,
  ⟨0x0000FB, "CICO CORPORATION"⟩,
  ⟨0x0000F8, "CIMX INITIATIVE INC."⟩,
  ⟨0x000123, "Contec Co., Ltd."⟩,
  ⟨0x000130, "COOLDESIGN Corporation"⟩,
  ⟨0x000067, "CORONA CORPORATION"⟩,
  ⟨0x00013B, "Crossdoor Inc."⟩,
  ⟨0x000143, "Deye Energy Japan Co., Ltd."⟩,
  ⟨0x00009C, "Diamond Electric Mfg.Co.,Ltd."⟩,
  ⟨0x000080, "DIAMOND&ZEBRA ELECTRIC MFG.CO.,LTD."⟩,
  ⟨0x000119, "DAIHEN Corporation"⟩,
  ⟨0x000008, "DAIKIN INDUSTRIES,LTD."⟩,
  ⟨0x000015, "Daikin Systems&Solutions Laboratory Ltd."⟩,
  ⟨0x000141, "DAIKO ELECTRIC CO.,LTD."⟩,
  ⟨0x00004F, "Daiwa House Industry co.,Ltd"⟩,
  ⟨0x000103, "Data Technology Inc."⟩,
  ⟨0x0000E3, "DDL Co.,Ltd"⟩,
  ⟨0x0000AD, "Delta Electronics (Japan), Inc."⟩,
  ⟨0x0000BE, "DENKEN Co.,Ltd."⟩,
  ⟨0x0000F4, "DENSO AIRCOOL CORPORATION"⟩,
  ⟨0x00003C, "DENSO Corporation"⟩,
  ⟨0x000109, "DENSO Co.,LTD."⟩,
  ⟨0x00012B, "DENSO WAVE INCORPORATED"⟩,
  ⟨0x000113, "EBARA JITSUGYO CO., LTD"⟩,
  ⟨0x000057, "ELIIYPower Co.,ltd"⟩,
  ⟨0x00012E, "Eneres Co.,Ltd."⟩,
  ⟨0x000041, "ENEGATE CO.,LTD."⟩,
  ⟨0x00010A, "ENERGY GAP CORPORATION"⟩,
  ⟨0x0000F3, "Energy Gateway, Inc"⟩,
  ⟨0x00013F, "Energy Pool Japan K.K."⟩,
  ⟨0x0000F2, "Energy Solutions Inc."⟩,
  ⟨0x000072, "Eneres Co.,Ltd."⟩,
  ⟨0x0000DD, "EneStone Corporation"⟩,
  ⟨0x000132, "EX4Energy, Inc."⟩,
  ⟨0x000055, "FAMILYNET JAPAN CORPORATION"⟩,
  ⟨0x0000F6, "Field Logic Inc."⟩,
  ⟨0x00012F, "FORMOSA BIO AND ENERGY CORP JAPAN"⟩,
  ⟨0x0000CB, "Fuji Electric Co.,Ltd"⟩,
  ⟨0x0000FC, "FUJI INDUSTRIAL CO.,Ltd."⟩,
  ⟨0x000051, "Fuji IT Co.,Ltd."⟩,
  ⟨0x00008A, "FUJITSU GENERAL LIMITED"⟩,
  ⟨0x00004E, "FUJITSU LIMITED"⟩,
  ⟨0x000090, "Fujitsu Component Limited"⟩,
  ⟨0x0000DE, "FUJIFILM Business Innovation Japan Corp"⟩,
  ⟨0x000097, "Future Technology Laboratories, Inc."⟩,
  ⟨0x00009B, "GASTAR Co.,Ltd"⟩,
  ⟨0x00008F, "Glamo Inc."⟩,
  ⟨0x000129, "GoodWe Japan K.K"⟩,
  ⟨0x000134, "GoodWe Technologies Co.,Ltd."⟩,
  ⟨0x00009F, "GS Yuasa International Ltd"⟩,
  ⟨0x00013A, "GUGEN,Inc."⟩,
  ⟨0x000122, "Hanwha Q CELLS Japan CO.,LTD."⟩,
  ⟨0x000001, "Hitachi, Ltd."⟩,
  ⟨0x000022, "Hitachi Global Life Solutions, Inc."⟩,
  ⟨0x000040, "Hitachi High-Tech Solutions Corporation"⟩,
  ⟨0x000044, "Hitachi Industrial Equipment Systems Co.,Ltd."⟩,
  ⟨0x0000E5, "Hitachi Power Solutions Co.,Ltd."⟩,
  ⟨0x0000E6, "Hokkaido Electrical Safety Services Foundation"⟩,
  ⟨0x0000B8, "Hokkaido Electric Power Network, Inc."⟩,
  ⟨0x0000BB, "Hokuriku Electric Power Transmission & Distribution Company"⟩,
  ⟨0x0000A1, "Honda R&D Co., Ltd."⟩,
  ⟨0x000115, "HUAWEI TECHNOLOGIES JAPAN K.K."⟩,
  ⟨0x0000B0, "idea co.,ltd. "⟩,
  ⟨0x0000AC, "IDEC COROPRATION"⟩,
  ⟨0x00013E, "i GRID SOLUTIONS Inc."⟩,
  ⟨0x00004D, "INABA DENKI SANGYO CO.,LTD."⟩,
  ⟨0x000056, "iND Co.,Ltd"⟩,
  ⟨0x0000ED, "INFINI Co. LTD"⟩,
  ⟨0x000124, "INTEC Inc."⟩,
  ⟨0x0000B1, "Internet Initiative Japan Inc."⟩,
  ⟨0x000087, "I-O DATA DEVICE,INC."⟩,
  ⟨0x00006B, "ISB Corporation"⟩,
  ⟨0x00010F, "Iwatani Corporation"⟩,
  ⟨0x000081, "IWATSU ELECTRIC CO., LTD."⟩,
  ⟨0x0000C3, "Japan Electric Meters Inspection Corporation"⟩,
  ⟨0x0000F7, "JCity,Inc."⟩,
  ⟨0x0000CA, "JSP CO.,LTD."⟩,
  ⟨0x0000D7, "Kaga Electronics co.,ltd."⟩,
  ⟨0x000077, "Kanagawa Institute of Technology"⟩,
  ⟨0x000063, "Kawamura Electric Inc."⟩,
  ⟨0x0000F0, "KANEKA CORPORATION"⟩,
  ⟨0x00010B, "KITANIHON ELECTRIC CABLE CO.,LTD."⟩,
  ⟨0x0000E8, "KOIZUMI LIGHTING TECHNOLOGY CORP."⟩,
  ⟨0x00003B, "KYOCERA Corporation"⟩,
  ⟨0x00008C, "Kyuden Technosystems Corporation"⟩,
  ⟨0x0000BF, "KYUSHU ELECTRIC POWER TRANSMISSION AND DISTRIBUTION CO.,INC."⟩,
  ⟨0x000140, "Landis+Gyr AG"⟩,
  ⟨0x0000F1, "Laplace Systems Co., Ltd."⟩,
  ⟨0x000135, "LinkJapan Inc."⟩,
  ⟨0x000125, "LiveSmart KK"⟩,
  ⟨0x000025, "LIXIL Corporation"⟩,
  ⟨0x0000E0, "Looop Inc"⟩,
  ⟨0x00010C, "MAX CO., LTD."⟩,
  ⟨0x000078, "Maxell, Ltd."⟩,
  ⟨0x000058, "Mediotec Corporation"⟩,
  ⟨0x000120, "Meisei electric co.,ltd."⟩,
  ⟨0x000083, "Melco Techno Yokohama Corporation"⟩,
  ⟨0x000006, "Mitsubishi Electric Corp."⟩,
  ⟨0x000034, "MITSUBISHI ELECTRIC ENGINEERING COMPANY LIMITED"⟩,
  ⟨0x000105, "Mitsubishi Electric Lighting Corporation"⟩,
  ⟨0x00012A, "Monochrome Inc."⟩,
  ⟨0x00011D, "mui Lab, Inc."⟩,
  ⟨0x0000D4, "Murata Manufacturing Co.,Ltd."⟩,
  ⟨0x000106, "Nature Inc."⟩,
  ⟨0x000009, "NEC Corp."⟩,
  ⟨0x000118, "NEC Magnus Communications, Ltd"⟩,
  ⟨0x000073, "NEC Platforms, Ltd."⟩,
  ⟨0x000091, "NEC Platforms, Ltd."⟩,
  ⟨0x0000E2, "NextDrive Inc."⟩,
  ⟨0x000104, "Next Energy & Resources Co., Ltd."⟩,
  ⟨0x0000B2, "NF Blossom Technologies, Inc."⟩,
  ⟨0x0000A5, "Nichibei Co., Ltd."⟩,
  ⟨0x00006C, "NICHICON CORPORATION"⟩,
  ⟨0x0000EB, "NICHICON (KAMEOKA) CORPORATION"⟩,
  ⟨0x000102, "NICHICON (KUSATSU) CORPORATION"⟩,
  ⟨0x000112, "NICHIEI INTEC CO., LTD"⟩,
  ⟨0x000071, "NIHON SANGYO CO.,LTD."⟩,
  ⟨0x0000DC, "NIHON TECHNO CO.,LTD."⟩,
  ⟨0x00013D, "NIPPON GAS CO.,LTD."⟩,
  ⟨0x00008D, "NIPPON TELEGRAPH AND TELEPHONE CORPORATION"⟩,
  ⟨0x000047, "NIPPON TELEGRAPH AND TELEPHONE EAST CORPORATION"⟩,
  ⟨0x000086, "NIPPON TELEGRAPH AND TELEPHONE WEST CORPORATION"⟩,
  ⟨0x000036, "NISSIN SYSTEMS CO., LTD."⟩,
  ⟨0x0000B7, "Nitto Kogyo Corporation"⟩,
  ⟨0x000054, "NORITZ CORP."⟩,
  ⟨0x00007C, "NSW Inc."⟩,
  ⟨0x0000A0, "NTT Advanced Technology Corporation"⟩,
  ⟨0x000023, "NTT COMWARE CORPORATION"⟩,
  ⟨0x000061, "NTT DATA INTELLILINK Corporation"⟩,
  ⟨0x0000E9, "NTT SMILE ENERGY,Inc."⟩,
  ⟨0x0000F5, "ODELIC CO., LTD."⟩,
  ⟨0x000012, "Oi Electric Co., Ltd"⟩,
  ⟨0x00006A, "OKAYA & CO., LTD."⟩,
  ⟨0x000114, "OkayaKiden Co.,Ltd."⟩,
  ⟨0x000137, "OkayaKiden Co.,Ltd."⟩,
  ⟨0x000048, "Oki Electric Industry Co., Ltd."⟩,
  ⟨0x000064, "OMRON SOCIAL SOLUTIONS CO.,LTD."⟩,
  ⟨0x00012C, "Onamba Co., Ltd."⟩,
  ⟨0x0000D8, "OSAKI DATATECH CO.,LTD."⟩,
  ⟨0x000052, "OSAKI ELECTRIC CO.,LTD."⟩,
  ⟨0x000127, "Paloma Co.,Ltd."⟩,
  ⟨0x00000B, "Panasonic Holdings Corporation"⟩,
  ⟨0x0000DA, "Panasonic Commercial Equipment Systems Co.,Ltd."⟩,
  ⟨0x0000FE, "Panasonic Ecology Systems Co.,Ltd."⟩,
  ⟨0x0000FA, "Plat'Home Co."⟩,
  ⟨0x000082, "PURPOSE CO.,LTD."⟩,
  ⟨0x000139, "RATOC Systems, Inc."⟩,
  ⟨0x000059, "Rinnai Corporation"⟩,
  ⟨0x000128, "SAIKOH ENGINEERING Co.,Ltd."⟩,
  ⟨0x00011E, "SAKAIGAWA CO., LTD"⟩,
  ⟨0x00011C, "SANDEN RETAIL SYSTEMS CORPORATION"⟩,
  ⟨0x00010E, "SANIX INCORPORATED"⟩,
  ⟨0x0000BA, "SankyoTateyama, Inc."⟩,
  ⟨0x0000C5, "SANWA SHUTTER CORPORATION"⟩,
  ⟨0x000093, "SATORI ELECTRIC CO.,LTD."⟩,
  ⟨0x000107, "SEIKO ELECTRIC CO.,LTD."⟩,
  ⟨0x00003A, "SEKISUI HOUSE, LTD."⟩,
  ⟨0x000005, "Sharp Corp"⟩,
  ⟨0x000131, "Shenzhen Eternalplanet Energy Pingshan Ltd."⟩,
  ⟨0x0000AE, "SHIKOKU ELECTRIC POWER CO.,INC."⟩,
  ⟨0x00002E, "SHIKOKU INSTRUMENTATION CO.,LTD"⟩,
  ⟨0x0000CE, "SHINDENGEN ELECTRIC MANUFACTURING CO.LTD."⟩,
  ⟨0x00010D, "Shizen Connect Inc."⟩,
  ⟨0x0000A8, "Smart Power System. Co,. Ltd."⟩,
  ⟨0x0000DF, "SMA Japan K.K."⟩,
  ⟨0x000100, "Smart Solar Corporation"⟩,
  ⟨0x00007E, "SMK Corporation"⟩,
  ⟨0x0000E1, "SoftBank Corp."⟩,
  ⟨0x00011B, "SolaX Power Network Technology (Zhe jiang) Co. , Ltd."⟩,
  ⟨0x000060, "Sony Computer Science Laboratories, Inc."⟩,
  ⟨0x00006E, "Soundvision co.,ltd."⟩,
  ⟨0x000108, "SOUSEI Technology Inc."⟩,
  ⟨0x000116, "Sungrow Power Supply Co., Ltd."⟩,
  ⟨0x000101, "Sunpot Co., Ltd"⟩,
  ⟨0x0000DB, "Suntech Power Japan Corporation"⟩,
  ⟨0x00003D, "SUMITOMO ELECTRIC INDUSTRIES, LTD."⟩,
  ⟨0x00003E, "SUMITOMO ELECTRIC NETWORKS, INC."⟩,
  ⟨0x00012D, "TACHIKAWA CORPORATION"⟩,
  ⟨0x000085, "TAKAOKA TOKO CO.,LTD"⟩,
  ⟨0x0000AF, "Takara Standard Co.,Ltd"⟩,
  ⟨0x0000E4, "technoeye Inc."⟩,
  ⟨0x0000FF, "TEPCO Energy Partner, Inc."⟩,
  ⟨0x0000EE, "TESSERA TECHNOLOGY INC."⟩,
  ⟨0x0000B5, "The Chugoku Electric Power Co., Ltd"⟩,
  ⟨0x00009A, "The Kansai Electric Power Co., Inc."⟩,
  ⟨0x0000CD, "TOCLAS CORPORATION"⟩,
  ⟨0x000126, "Togami Electric Mfg.co.,Ltd."⟩,
  ⟨0x0000F9, "TOHO ELECTRONICS INC."⟩,
  ⟨0x0000C2, "Tohoku Electric Meter Industry Co.,Inc"⟩,
  ⟨0x0000BC, "TohokuElectric Power Network Company,Incorporated"⟩,
  ⟨0x000099, "Tokyo Electric Power Company Holdings, Inc."⟩,
  ⟨0x0000B3, "TOPPERS Project, Inc."⟩,
  ⟨0x000111, "Topre Corporation"⟩,
  ⟨0x000016, "Toshiba Corporation"⟩,
  ⟨0x000043, "TOSHIBA DEVELOPMENT & ENGINEERING CORPORATION"⟩,
  ⟨0x0000EC, "Toshiba Energy Systems & Solutions Corporation"⟩,
  ⟨0x0000D9, "Toshiba IT & Control Systems Corporation"⟩,
  ⟨0x000069, "Toshiba Lifestyle Products & Services Corporation"⟩,
  ⟨0x00001B, "TOSHIBA LIGHTING & TECHNOLOGY CORPORATION"⟩,
  ⟨0x000035, "Toshiba Toko Meter Systems Co.,Ltd."⟩,
  ⟨0x000050, "TOTO LTD."⟩,
  ⟨0x0000EF, "TOYOTA INDUSTRIES CORPORATION"⟩,
  ⟨0x000121, "TOYOTA MOTOR CORPORATION"⟩,
  ⟨0x00011F, "TOYOTA TSUSHO CORPORATION"⟩,
  ⟨0x00005C, "Tranceboot Co.,Ltd."⟩,
  ⟨0x000138, "TRENDE Inc."⟩,
  ⟨0x000076, "TSP CO.,Ltd"⟩,
  ⟨0x0000D0, "TSUBAKIMOTO CHAIN CO."⟩,
  ⟨0x0000C1, "Tsuken Electric Ind Co., Ltd."⟩,
  ⟨0x000053, "Ubiquitous AI Corporation"⟩,
  ⟨0x000117, "WWB Corporation"⟩,
  ⟨0x000095, "Yamato Denki Co.,Ltd."⟩,
  ⟨0x000142, "Yanekara Inc"⟩,
  ⟨0x00009E, "YASKAWA ELECTRIC CORPORATION"⟩,
  ⟨0x00007A, "ZUKEN ELMIC,INC."⟩,
  ⟨0x0000B4, "4R Energy Corporation"⟩,
  ⟨0xFFFFFF, "Experimental"⟩,
  ⟨0xFFFFFE, "Undefined"⟩]

end Uecho.Table

import Verif.Model.FiatField

/-!
# The functions, constants and table of `/repo/ecp_id_GostR3410_2001_CryptoPro_C_ParamSet.c`

32 bit version of the file (`__SIZEOF_INT128__` is not defined).  Generated by `tools/mkfiat.py`, statement by statement;
see `Verif/Model/Fiat.lean` for the meaning.  All line numbers refer to this file.
-/

namespace Gost.Ecp_CryptoPro_C_32

set_option maxRecDepth 100000

/-- `fiat_id_GostR3410_2001_CryptoPro_C_ParamSet_mul`, lines 5280-6944. -/
def mul : CProg := ⟨[
  .set (.a 1), .set (.a 2), .set (.a 3), .set (.a 4), .set (.a 5), .set (.a 6), .set (.a 7), .set (.a 0), .mulx 32 (.x 8) (.b 7),
  .mulx 32 (.x 8) (.b 6), .mulx 32 (.x 8) (.b 5), .mulx 32 (.x 8) (.b 4), .mulx 32 (.x 8) (.b 3), .mulx 32 (.x 8) (.b 2),
  .mulx 32 (.x 8) (.b 1), .mulx 32 (.x 8) (.b 0), .adc 64 32 (.c 0) (.x 24) (.x 21), .adc 64 32 (.x 26) (.x 22) (.x 19),
  .adc 64 32 (.x 28) (.x 20) (.x 17), .adc 64 32 (.x 30) (.x 18) (.x 15), .adc 64 32 (.x 32) (.x 16) (.x 13),
  .adc 64 32 (.x 34) (.x 14) (.x 11), .adc 64 32 (.x 36) (.x 12) (.x 9), .set (.add 32 (.x 38) (.x 10)), .mulx 32 (.x 23) (.c 0x727c176d),
  .mulx 32 (.x 40) (.c 0x9b9f605f), .mulx 32 (.x 40) (.c 0x5a858107), .mulx 32 (.x 40) (.c 0xab1ec85e), .mulx 32 (.x 40) (.c 0x6b41c8aa),
  .mulx 32 (.x 40) (.c 0xcf846e86), .mulx 32 (.x 40) (.c 0x789051d3), .mulx 32 (.x 40) (.c 0x7998f7b9), .mulx 32 (.x 40) (.c 0x22d759b),
  .adc 64 32 (.c 0) (.x 57) (.x 54), .adc 64 32 (.x 59) (.x 55) (.x 52), .adc 64 32 (.x 61) (.x 53) (.x 50),
  .adc 64 32 (.x 63) (.x 51) (.x 48), .adc 64 32 (.x 65) (.x 49) (.x 46), .adc 64 32 (.x 67) (.x 47) (.x 44),
  .adc 64 32 (.x 69) (.x 45) (.x 42), .set (.add 32 (.x 71) (.x 43)), .adc 64 32 (.c 0) (.x 23) (.x 56), .adc 64 32 (.x 74) (.x 25) (.x 58),
  .adc 64 32 (.x 76) (.x 27) (.x 60), .adc 64 32 (.x 78) (.x 29) (.x 62), .adc 64 32 (.x 80) (.x 31) (.x 64),
  .adc 64 32 (.x 82) (.x 33) (.x 66), .adc 64 32 (.x 84) (.x 35) (.x 68), .adc 64 32 (.x 86) (.x 37) (.x 70),
  .adc 64 32 (.x 88) (.x 39) (.x 72), .mulx 32 (.x 1) (.b 7), .mulx 32 (.x 1) (.b 6), .mulx 32 (.x 1) (.b 5), .mulx 32 (.x 1) (.b 4),
  .mulx 32 (.x 1) (.b 3), .mulx 32 (.x 1) (.b 2), .mulx 32 (.x 1) (.b 1), .mulx 32 (.x 1) (.b 0), .adc 64 32 (.c 0) (.x 106) (.x 103),
  .adc 64 32 (.x 108) (.x 104) (.x 101), .adc 64 32 (.x 110) (.x 102) (.x 99), .adc 64 32 (.x 112) (.x 100) (.x 97),
  .adc 64 32 (.x 114) (.x 98) (.x 95), .adc 64 32 (.x 116) (.x 96) (.x 93), .adc 64 32 (.x 118) (.x 94) (.x 91),
  .set (.add 32 (.x 120) (.x 92)), .adc 64 32 (.c 0) (.x 75) (.x 105), .adc 64 32 (.x 123) (.x 77) (.x 107),
  .adc 64 32 (.x 125) (.x 79) (.x 109), .adc 64 32 (.x 127) (.x 81) (.x 111), .adc 64 32 (.x 129) (.x 83) (.x 113),
  .adc 64 32 (.x 131) (.x 85) (.x 115), .adc 64 32 (.x 133) (.x 87) (.x 117), .adc 64 32 (.x 135) (.x 89) (.x 119),
  .adc 64 32 (.x 137) (.x 90) (.x 121), .mulx 32 (.x 122) (.c 0x727c176d), .mulx 32 (.x 140) (.c 0x9b9f605f),
  .mulx 32 (.x 140) (.c 0x5a858107), .mulx 32 (.x 140) (.c 0xab1ec85e), .mulx 32 (.x 140) (.c 0x6b41c8aa),
  .mulx 32 (.x 140) (.c 0xcf846e86), .mulx 32 (.x 140) (.c 0x789051d3), .mulx 32 (.x 140) (.c 0x7998f7b9), .mulx 32 (.x 140) (.c 0x22d759b),
  .adc 64 32 (.c 0) (.x 157) (.x 154), .adc 64 32 (.x 159) (.x 155) (.x 152), .adc 64 32 (.x 161) (.x 153) (.x 150),
  .adc 64 32 (.x 163) (.x 151) (.x 148), .adc 64 32 (.x 165) (.x 149) (.x 146), .adc 64 32 (.x 167) (.x 147) (.x 144),
  .adc 64 32 (.x 169) (.x 145) (.x 142), .set (.add 32 (.x 171) (.x 143)), .adc 64 32 (.c 0) (.x 122) (.x 156),
  .adc 64 32 (.x 174) (.x 124) (.x 158), .adc 64 32 (.x 176) (.x 126) (.x 160), .adc 64 32 (.x 178) (.x 128) (.x 162),
  .adc 64 32 (.x 180) (.x 130) (.x 164), .adc 64 32 (.x 182) (.x 132) (.x 166), .adc 64 32 (.x 184) (.x 134) (.x 168),
  .adc 64 32 (.x 186) (.x 136) (.x 170), .adc 64 32 (.x 188) (.x 138) (.x 172), .set (.add 32 (.x 190) (.x 139)), .mulx 32 (.x 2) (.b 7),
  .mulx 32 (.x 2) (.b 6), .mulx 32 (.x 2) (.b 5), .mulx 32 (.x 2) (.b 4), .mulx 32 (.x 2) (.b 3), .mulx 32 (.x 2) (.b 2),
  .mulx 32 (.x 2) (.b 1), .mulx 32 (.x 2) (.b 0), .adc 64 32 (.c 0) (.x 207) (.x 204), .adc 64 32 (.x 209) (.x 205) (.x 202),
  .adc 64 32 (.x 211) (.x 203) (.x 200), .adc 64 32 (.x 213) (.x 201) (.x 198), .adc 64 32 (.x 215) (.x 199) (.x 196),
  .adc 64 32 (.x 217) (.x 197) (.x 194), .adc 64 32 (.x 219) (.x 195) (.x 192), .set (.add 32 (.x 221) (.x 193)),
  .adc 64 32 (.c 0) (.x 175) (.x 206), .adc 64 32 (.x 224) (.x 177) (.x 208), .adc 64 32 (.x 226) (.x 179) (.x 210),
  .adc 64 32 (.x 228) (.x 181) (.x 212), .adc 64 32 (.x 230) (.x 183) (.x 214), .adc 64 32 (.x 232) (.x 185) (.x 216),
  .adc 64 32 (.x 234) (.x 187) (.x 218), .adc 64 32 (.x 236) (.x 189) (.x 220), .adc 64 32 (.x 238) (.x 191) (.x 222),
  .mulx 32 (.x 223) (.c 0x727c176d), .mulx 32 (.x 241) (.c 0x9b9f605f), .mulx 32 (.x 241) (.c 0x5a858107),
  .mulx 32 (.x 241) (.c 0xab1ec85e), .mulx 32 (.x 241) (.c 0x6b41c8aa), .mulx 32 (.x 241) (.c 0xcf846e86),
  .mulx 32 (.x 241) (.c 0x789051d3), .mulx 32 (.x 241) (.c 0x7998f7b9), .mulx 32 (.x 241) (.c 0x22d759b),
  .adc 64 32 (.c 0) (.x 258) (.x 255), .adc 64 32 (.x 260) (.x 256) (.x 253), .adc 64 32 (.x 262) (.x 254) (.x 251),
  .adc 64 32 (.x 264) (.x 252) (.x 249), .adc 64 32 (.x 266) (.x 250) (.x 247), .adc 64 32 (.x 268) (.x 248) (.x 245),
  .adc 64 32 (.x 270) (.x 246) (.x 243), .set (.add 32 (.x 272) (.x 244)), .adc 64 32 (.c 0) (.x 223) (.x 257),
  .adc 64 32 (.x 275) (.x 225) (.x 259), .adc 64 32 (.x 277) (.x 227) (.x 261), .adc 64 32 (.x 279) (.x 229) (.x 263),
  .adc 64 32 (.x 281) (.x 231) (.x 265), .adc 64 32 (.x 283) (.x 233) (.x 267), .adc 64 32 (.x 285) (.x 235) (.x 269),
  .adc 64 32 (.x 287) (.x 237) (.x 271), .adc 64 32 (.x 289) (.x 239) (.x 273), .set (.add 32 (.x 291) (.x 240)), .mulx 32 (.x 3) (.b 7),
  .mulx 32 (.x 3) (.b 6), .mulx 32 (.x 3) (.b 5), .mulx 32 (.x 3) (.b 4), .mulx 32 (.x 3) (.b 3), .mulx 32 (.x 3) (.b 2),
  .mulx 32 (.x 3) (.b 1), .mulx 32 (.x 3) (.b 0), .adc 64 32 (.c 0) (.x 308) (.x 305), .adc 64 32 (.x 310) (.x 306) (.x 303),
  .adc 64 32 (.x 312) (.x 304) (.x 301), .adc 64 32 (.x 314) (.x 302) (.x 299), .adc 64 32 (.x 316) (.x 300) (.x 297),
  .adc 64 32 (.x 318) (.x 298) (.x 295), .adc 64 32 (.x 320) (.x 296) (.x 293), .set (.add 32 (.x 322) (.x 294)),
  .adc 64 32 (.c 0) (.x 276) (.x 307), .adc 64 32 (.x 325) (.x 278) (.x 309), .adc 64 32 (.x 327) (.x 280) (.x 311),
  .adc 64 32 (.x 329) (.x 282) (.x 313), .adc 64 32 (.x 331) (.x 284) (.x 315), .adc 64 32 (.x 333) (.x 286) (.x 317),
  .adc 64 32 (.x 335) (.x 288) (.x 319), .adc 64 32 (.x 337) (.x 290) (.x 321), .adc 64 32 (.x 339) (.x 292) (.x 323),
  .mulx 32 (.x 324) (.c 0x727c176d), .mulx 32 (.x 342) (.c 0x9b9f605f), .mulx 32 (.x 342) (.c 0x5a858107),
  .mulx 32 (.x 342) (.c 0xab1ec85e), .mulx 32 (.x 342) (.c 0x6b41c8aa), .mulx 32 (.x 342) (.c 0xcf846e86),
  .mulx 32 (.x 342) (.c 0x789051d3), .mulx 32 (.x 342) (.c 0x7998f7b9), .mulx 32 (.x 342) (.c 0x22d759b),
  .adc 64 32 (.c 0) (.x 359) (.x 356), .adc 64 32 (.x 361) (.x 357) (.x 354), .adc 64 32 (.x 363) (.x 355) (.x 352),
  .adc 64 32 (.x 365) (.x 353) (.x 350), .adc 64 32 (.x 367) (.x 351) (.x 348), .adc 64 32 (.x 369) (.x 349) (.x 346),
  .adc 64 32 (.x 371) (.x 347) (.x 344), .set (.add 32 (.x 373) (.x 345)), .adc 64 32 (.c 0) (.x 324) (.x 358),
  .adc 64 32 (.x 376) (.x 326) (.x 360), .adc 64 32 (.x 378) (.x 328) (.x 362), .adc 64 32 (.x 380) (.x 330) (.x 364),
  .adc 64 32 (.x 382) (.x 332) (.x 366), .adc 64 32 (.x 384) (.x 334) (.x 368), .adc 64 32 (.x 386) (.x 336) (.x 370),
  .adc 64 32 (.x 388) (.x 338) (.x 372), .adc 64 32 (.x 390) (.x 340) (.x 374), .set (.add 32 (.x 392) (.x 341)), .mulx 32 (.x 4) (.b 7),
  .mulx 32 (.x 4) (.b 6), .mulx 32 (.x 4) (.b 5), .mulx 32 (.x 4) (.b 4), .mulx 32 (.x 4) (.b 3), .mulx 32 (.x 4) (.b 2),
  .mulx 32 (.x 4) (.b 1), .mulx 32 (.x 4) (.b 0), .adc 64 32 (.c 0) (.x 409) (.x 406), .adc 64 32 (.x 411) (.x 407) (.x 404),
  .adc 64 32 (.x 413) (.x 405) (.x 402), .adc 64 32 (.x 415) (.x 403) (.x 400), .adc 64 32 (.x 417) (.x 401) (.x 398),
  .adc 64 32 (.x 419) (.x 399) (.x 396), .adc 64 32 (.x 421) (.x 397) (.x 394), .set (.add 32 (.x 423) (.x 395)),
  .adc 64 32 (.c 0) (.x 377) (.x 408), .adc 64 32 (.x 426) (.x 379) (.x 410), .adc 64 32 (.x 428) (.x 381) (.x 412),
  .adc 64 32 (.x 430) (.x 383) (.x 414), .adc 64 32 (.x 432) (.x 385) (.x 416), .adc 64 32 (.x 434) (.x 387) (.x 418),
  .adc 64 32 (.x 436) (.x 389) (.x 420), .adc 64 32 (.x 438) (.x 391) (.x 422), .adc 64 32 (.x 440) (.x 393) (.x 424),
  .mulx 32 (.x 425) (.c 0x727c176d), .mulx 32 (.x 443) (.c 0x9b9f605f), .mulx 32 (.x 443) (.c 0x5a858107),
  .mulx 32 (.x 443) (.c 0xab1ec85e), .mulx 32 (.x 443) (.c 0x6b41c8aa), .mulx 32 (.x 443) (.c 0xcf846e86),
  .mulx 32 (.x 443) (.c 0x789051d3), .mulx 32 (.x 443) (.c 0x7998f7b9), .mulx 32 (.x 443) (.c 0x22d759b),
  .adc 64 32 (.c 0) (.x 460) (.x 457), .adc 64 32 (.x 462) (.x 458) (.x 455), .adc 64 32 (.x 464) (.x 456) (.x 453),
  .adc 64 32 (.x 466) (.x 454) (.x 451), .adc 64 32 (.x 468) (.x 452) (.x 449), .adc 64 32 (.x 470) (.x 450) (.x 447),
  .adc 64 32 (.x 472) (.x 448) (.x 445), .set (.add 32 (.x 474) (.x 446)), .adc 64 32 (.c 0) (.x 425) (.x 459),
  .adc 64 32 (.x 477) (.x 427) (.x 461), .adc 64 32 (.x 479) (.x 429) (.x 463), .adc 64 32 (.x 481) (.x 431) (.x 465),
  .adc 64 32 (.x 483) (.x 433) (.x 467), .adc 64 32 (.x 485) (.x 435) (.x 469), .adc 64 32 (.x 487) (.x 437) (.x 471),
  .adc 64 32 (.x 489) (.x 439) (.x 473), .adc 64 32 (.x 491) (.x 441) (.x 475), .set (.add 32 (.x 493) (.x 442)), .mulx 32 (.x 5) (.b 7),
  .mulx 32 (.x 5) (.b 6), .mulx 32 (.x 5) (.b 5), .mulx 32 (.x 5) (.b 4), .mulx 32 (.x 5) (.b 3), .mulx 32 (.x 5) (.b 2),
  .mulx 32 (.x 5) (.b 1), .mulx 32 (.x 5) (.b 0), .adc 64 32 (.c 0) (.x 510) (.x 507), .adc 64 32 (.x 512) (.x 508) (.x 505),
  .adc 64 32 (.x 514) (.x 506) (.x 503), .adc 64 32 (.x 516) (.x 504) (.x 501), .adc 64 32 (.x 518) (.x 502) (.x 499),
  .adc 64 32 (.x 520) (.x 500) (.x 497), .adc 64 32 (.x 522) (.x 498) (.x 495), .set (.add 32 (.x 524) (.x 496)),
  .adc 64 32 (.c 0) (.x 478) (.x 509), .adc 64 32 (.x 527) (.x 480) (.x 511), .adc 64 32 (.x 529) (.x 482) (.x 513),
  .adc 64 32 (.x 531) (.x 484) (.x 515), .adc 64 32 (.x 533) (.x 486) (.x 517), .adc 64 32 (.x 535) (.x 488) (.x 519),
  .adc 64 32 (.x 537) (.x 490) (.x 521), .adc 64 32 (.x 539) (.x 492) (.x 523), .adc 64 32 (.x 541) (.x 494) (.x 525),
  .mulx 32 (.x 526) (.c 0x727c176d), .mulx 32 (.x 544) (.c 0x9b9f605f), .mulx 32 (.x 544) (.c 0x5a858107),
  .mulx 32 (.x 544) (.c 0xab1ec85e), .mulx 32 (.x 544) (.c 0x6b41c8aa), .mulx 32 (.x 544) (.c 0xcf846e86),
  .mulx 32 (.x 544) (.c 0x789051d3), .mulx 32 (.x 544) (.c 0x7998f7b9), .mulx 32 (.x 544) (.c 0x22d759b),
  .adc 64 32 (.c 0) (.x 561) (.x 558), .adc 64 32 (.x 563) (.x 559) (.x 556), .adc 64 32 (.x 565) (.x 557) (.x 554),
  .adc 64 32 (.x 567) (.x 555) (.x 552), .adc 64 32 (.x 569) (.x 553) (.x 550), .adc 64 32 (.x 571) (.x 551) (.x 548),
  .adc 64 32 (.x 573) (.x 549) (.x 546), .set (.add 32 (.x 575) (.x 547)), .adc 64 32 (.c 0) (.x 526) (.x 560),
  .adc 64 32 (.x 578) (.x 528) (.x 562), .adc 64 32 (.x 580) (.x 530) (.x 564), .adc 64 32 (.x 582) (.x 532) (.x 566),
  .adc 64 32 (.x 584) (.x 534) (.x 568), .adc 64 32 (.x 586) (.x 536) (.x 570), .adc 64 32 (.x 588) (.x 538) (.x 572),
  .adc 64 32 (.x 590) (.x 540) (.x 574), .adc 64 32 (.x 592) (.x 542) (.x 576), .set (.add 32 (.x 594) (.x 543)), .mulx 32 (.x 6) (.b 7),
  .mulx 32 (.x 6) (.b 6), .mulx 32 (.x 6) (.b 5), .mulx 32 (.x 6) (.b 4), .mulx 32 (.x 6) (.b 3), .mulx 32 (.x 6) (.b 2),
  .mulx 32 (.x 6) (.b 1), .mulx 32 (.x 6) (.b 0), .adc 64 32 (.c 0) (.x 611) (.x 608), .adc 64 32 (.x 613) (.x 609) (.x 606),
  .adc 64 32 (.x 615) (.x 607) (.x 604), .adc 64 32 (.x 617) (.x 605) (.x 602), .adc 64 32 (.x 619) (.x 603) (.x 600),
  .adc 64 32 (.x 621) (.x 601) (.x 598), .adc 64 32 (.x 623) (.x 599) (.x 596), .set (.add 32 (.x 625) (.x 597)),
  .adc 64 32 (.c 0) (.x 579) (.x 610), .adc 64 32 (.x 628) (.x 581) (.x 612), .adc 64 32 (.x 630) (.x 583) (.x 614),
  .adc 64 32 (.x 632) (.x 585) (.x 616), .adc 64 32 (.x 634) (.x 587) (.x 618), .adc 64 32 (.x 636) (.x 589) (.x 620),
  .adc 64 32 (.x 638) (.x 591) (.x 622), .adc 64 32 (.x 640) (.x 593) (.x 624), .adc 64 32 (.x 642) (.x 595) (.x 626),
  .mulx 32 (.x 627) (.c 0x727c176d), .mulx 32 (.x 645) (.c 0x9b9f605f), .mulx 32 (.x 645) (.c 0x5a858107),
  .mulx 32 (.x 645) (.c 0xab1ec85e), .mulx 32 (.x 645) (.c 0x6b41c8aa), .mulx 32 (.x 645) (.c 0xcf846e86),
  .mulx 32 (.x 645) (.c 0x789051d3), .mulx 32 (.x 645) (.c 0x7998f7b9), .mulx 32 (.x 645) (.c 0x22d759b),
  .adc 64 32 (.c 0) (.x 662) (.x 659), .adc 64 32 (.x 664) (.x 660) (.x 657), .adc 64 32 (.x 666) (.x 658) (.x 655),
  .adc 64 32 (.x 668) (.x 656) (.x 653), .adc 64 32 (.x 670) (.x 654) (.x 651), .adc 64 32 (.x 672) (.x 652) (.x 649),
  .adc 64 32 (.x 674) (.x 650) (.x 647), .set (.add 32 (.x 676) (.x 648)), .adc 64 32 (.c 0) (.x 627) (.x 661),
  .adc 64 32 (.x 679) (.x 629) (.x 663), .adc 64 32 (.x 681) (.x 631) (.x 665), .adc 64 32 (.x 683) (.x 633) (.x 667),
  .adc 64 32 (.x 685) (.x 635) (.x 669), .adc 64 32 (.x 687) (.x 637) (.x 671), .adc 64 32 (.x 689) (.x 639) (.x 673),
  .adc 64 32 (.x 691) (.x 641) (.x 675), .adc 64 32 (.x 693) (.x 643) (.x 677), .set (.add 32 (.x 695) (.x 644)), .mulx 32 (.x 7) (.b 7),
  .mulx 32 (.x 7) (.b 6), .mulx 32 (.x 7) (.b 5), .mulx 32 (.x 7) (.b 4), .mulx 32 (.x 7) (.b 3), .mulx 32 (.x 7) (.b 2),
  .mulx 32 (.x 7) (.b 1), .mulx 32 (.x 7) (.b 0), .adc 64 32 (.c 0) (.x 712) (.x 709), .adc 64 32 (.x 714) (.x 710) (.x 707),
  .adc 64 32 (.x 716) (.x 708) (.x 705), .adc 64 32 (.x 718) (.x 706) (.x 703), .adc 64 32 (.x 720) (.x 704) (.x 701),
  .adc 64 32 (.x 722) (.x 702) (.x 699), .adc 64 32 (.x 724) (.x 700) (.x 697), .set (.add 32 (.x 726) (.x 698)),
  .adc 64 32 (.c 0) (.x 680) (.x 711), .adc 64 32 (.x 729) (.x 682) (.x 713), .adc 64 32 (.x 731) (.x 684) (.x 715),
  .adc 64 32 (.x 733) (.x 686) (.x 717), .adc 64 32 (.x 735) (.x 688) (.x 719), .adc 64 32 (.x 737) (.x 690) (.x 721),
  .adc 64 32 (.x 739) (.x 692) (.x 723), .adc 64 32 (.x 741) (.x 694) (.x 725), .adc 64 32 (.x 743) (.x 696) (.x 727),
  .mulx 32 (.x 728) (.c 0x727c176d), .mulx 32 (.x 746) (.c 0x9b9f605f), .mulx 32 (.x 746) (.c 0x5a858107),
  .mulx 32 (.x 746) (.c 0xab1ec85e), .mulx 32 (.x 746) (.c 0x6b41c8aa), .mulx 32 (.x 746) (.c 0xcf846e86),
  .mulx 32 (.x 746) (.c 0x789051d3), .mulx 32 (.x 746) (.c 0x7998f7b9), .mulx 32 (.x 746) (.c 0x22d759b),
  .adc 64 32 (.c 0) (.x 763) (.x 760), .adc 64 32 (.x 765) (.x 761) (.x 758), .adc 64 32 (.x 767) (.x 759) (.x 756),
  .adc 64 32 (.x 769) (.x 757) (.x 754), .adc 64 32 (.x 771) (.x 755) (.x 752), .adc 64 32 (.x 773) (.x 753) (.x 750),
  .adc 64 32 (.x 775) (.x 751) (.x 748), .set (.add 32 (.x 777) (.x 749)), .adc 64 32 (.c 0) (.x 728) (.x 762),
  .adc 64 32 (.x 780) (.x 730) (.x 764), .adc 64 32 (.x 782) (.x 732) (.x 766), .adc 64 32 (.x 784) (.x 734) (.x 768),
  .adc 64 32 (.x 786) (.x 736) (.x 770), .adc 64 32 (.x 788) (.x 738) (.x 772), .adc 64 32 (.x 790) (.x 740) (.x 774),
  .adc 64 32 (.x 792) (.x 742) (.x 776), .adc 64 32 (.x 794) (.x 744) (.x 778), .set (.add 32 (.x 796) (.x 745)),
  .sbb 64 32 (.c 0) (.x 781) (.c 0x22d759b), .sbb 64 32 (.x 799) (.x 783) (.c 0x7998f7b9), .sbb 64 32 (.x 801) (.x 785) (.c 0x789051d3),
  .sbb 64 32 (.x 803) (.x 787) (.c 0xcf846e86), .sbb 64 32 (.x 805) (.x 789) (.c 0x6b41c8aa), .sbb 64 32 (.x 807) (.x 791) (.c 0xab1ec85e),
  .sbb 64 32 (.x 809) (.x 793) (.c 0x5a858107), .sbb 64 32 (.x 811) (.x 795) (.c 0x9b9f605f), .sbb 64 32 (.x 813) (.x 797) (.c 0),
  .cmov 32 (.x 815) (.x 798) (.x 781), .cmov 32 (.x 815) (.x 800) (.x 783), .cmov 32 (.x 815) (.x 802) (.x 785),
  .cmov 32 (.x 815) (.x 804) (.x 787), .cmov 32 (.x 815) (.x 806) (.x 789), .cmov 32 (.x 815) (.x 808) (.x 791),
  .cmov 32 (.x 815) (.x 810) (.x 793), .cmov 32 (.x 815) (.x 812) (.x 795)], [816, 817, 818, 819, 820, 821, 822, 823]⟩

/-- `fiat_id_GostR3410_2001_CryptoPro_C_ParamSet_square`, lines 6959-8623. -/
def square : CProg := ⟨[
  .set (.a 1), .set (.a 2), .set (.a 3), .set (.a 4), .set (.a 5), .set (.a 6), .set (.a 7), .set (.a 0), .mulx 32 (.x 8) (.a 7),
  .mulx 32 (.x 8) (.a 6), .mulx 32 (.x 8) (.a 5), .mulx 32 (.x 8) (.a 4), .mulx 32 (.x 8) (.a 3), .mulx 32 (.x 8) (.a 2),
  .mulx 32 (.x 8) (.a 1), .mulx 32 (.x 8) (.a 0), .adc 64 32 (.c 0) (.x 24) (.x 21), .adc 64 32 (.x 26) (.x 22) (.x 19),
  .adc 64 32 (.x 28) (.x 20) (.x 17), .adc 64 32 (.x 30) (.x 18) (.x 15), .adc 64 32 (.x 32) (.x 16) (.x 13),
  .adc 64 32 (.x 34) (.x 14) (.x 11), .adc 64 32 (.x 36) (.x 12) (.x 9), .set (.add 32 (.x 38) (.x 10)), .mulx 32 (.x 23) (.c 0x727c176d),
  .mulx 32 (.x 40) (.c 0x9b9f605f), .mulx 32 (.x 40) (.c 0x5a858107), .mulx 32 (.x 40) (.c 0xab1ec85e), .mulx 32 (.x 40) (.c 0x6b41c8aa),
  .mulx 32 (.x 40) (.c 0xcf846e86), .mulx 32 (.x 40) (.c 0x789051d3), .mulx 32 (.x 40) (.c 0x7998f7b9), .mulx 32 (.x 40) (.c 0x22d759b),
  .adc 64 32 (.c 0) (.x 57) (.x 54), .adc 64 32 (.x 59) (.x 55) (.x 52), .adc 64 32 (.x 61) (.x 53) (.x 50),
  .adc 64 32 (.x 63) (.x 51) (.x 48), .adc 64 32 (.x 65) (.x 49) (.x 46), .adc 64 32 (.x 67) (.x 47) (.x 44),
  .adc 64 32 (.x 69) (.x 45) (.x 42), .set (.add 32 (.x 71) (.x 43)), .adc 64 32 (.c 0) (.x 23) (.x 56), .adc 64 32 (.x 74) (.x 25) (.x 58),
  .adc 64 32 (.x 76) (.x 27) (.x 60), .adc 64 32 (.x 78) (.x 29) (.x 62), .adc 64 32 (.x 80) (.x 31) (.x 64),
  .adc 64 32 (.x 82) (.x 33) (.x 66), .adc 64 32 (.x 84) (.x 35) (.x 68), .adc 64 32 (.x 86) (.x 37) (.x 70),
  .adc 64 32 (.x 88) (.x 39) (.x 72), .mulx 32 (.x 1) (.a 7), .mulx 32 (.x 1) (.a 6), .mulx 32 (.x 1) (.a 5), .mulx 32 (.x 1) (.a 4),
  .mulx 32 (.x 1) (.a 3), .mulx 32 (.x 1) (.a 2), .mulx 32 (.x 1) (.a 1), .mulx 32 (.x 1) (.a 0), .adc 64 32 (.c 0) (.x 106) (.x 103),
  .adc 64 32 (.x 108) (.x 104) (.x 101), .adc 64 32 (.x 110) (.x 102) (.x 99), .adc 64 32 (.x 112) (.x 100) (.x 97),
  .adc 64 32 (.x 114) (.x 98) (.x 95), .adc 64 32 (.x 116) (.x 96) (.x 93), .adc 64 32 (.x 118) (.x 94) (.x 91),
  .set (.add 32 (.x 120) (.x 92)), .adc 64 32 (.c 0) (.x 75) (.x 105), .adc 64 32 (.x 123) (.x 77) (.x 107),
  .adc 64 32 (.x 125) (.x 79) (.x 109), .adc 64 32 (.x 127) (.x 81) (.x 111), .adc 64 32 (.x 129) (.x 83) (.x 113),
  .adc 64 32 (.x 131) (.x 85) (.x 115), .adc 64 32 (.x 133) (.x 87) (.x 117), .adc 64 32 (.x 135) (.x 89) (.x 119),
  .adc 64 32 (.x 137) (.x 90) (.x 121), .mulx 32 (.x 122) (.c 0x727c176d), .mulx 32 (.x 140) (.c 0x9b9f605f),
  .mulx 32 (.x 140) (.c 0x5a858107), .mulx 32 (.x 140) (.c 0xab1ec85e), .mulx 32 (.x 140) (.c 0x6b41c8aa),
  .mulx 32 (.x 140) (.c 0xcf846e86), .mulx 32 (.x 140) (.c 0x789051d3), .mulx 32 (.x 140) (.c 0x7998f7b9), .mulx 32 (.x 140) (.c 0x22d759b),
  .adc 64 32 (.c 0) (.x 157) (.x 154), .adc 64 32 (.x 159) (.x 155) (.x 152), .adc 64 32 (.x 161) (.x 153) (.x 150),
  .adc 64 32 (.x 163) (.x 151) (.x 148), .adc 64 32 (.x 165) (.x 149) (.x 146), .adc 64 32 (.x 167) (.x 147) (.x 144),
  .adc 64 32 (.x 169) (.x 145) (.x 142), .set (.add 32 (.x 171) (.x 143)), .adc 64 32 (.c 0) (.x 122) (.x 156),
  .adc 64 32 (.x 174) (.x 124) (.x 158), .adc 64 32 (.x 176) (.x 126) (.x 160), .adc 64 32 (.x 178) (.x 128) (.x 162),
  .adc 64 32 (.x 180) (.x 130) (.x 164), .adc 64 32 (.x 182) (.x 132) (.x 166), .adc 64 32 (.x 184) (.x 134) (.x 168),
  .adc 64 32 (.x 186) (.x 136) (.x 170), .adc 64 32 (.x 188) (.x 138) (.x 172), .set (.add 32 (.x 190) (.x 139)), .mulx 32 (.x 2) (.a 7),
  .mulx 32 (.x 2) (.a 6), .mulx 32 (.x 2) (.a 5), .mulx 32 (.x 2) (.a 4), .mulx 32 (.x 2) (.a 3), .mulx 32 (.x 2) (.a 2),
  .mulx 32 (.x 2) (.a 1), .mulx 32 (.x 2) (.a 0), .adc 64 32 (.c 0) (.x 207) (.x 204), .adc 64 32 (.x 209) (.x 205) (.x 202),
  .adc 64 32 (.x 211) (.x 203) (.x 200), .adc 64 32 (.x 213) (.x 201) (.x 198), .adc 64 32 (.x 215) (.x 199) (.x 196),
  .adc 64 32 (.x 217) (.x 197) (.x 194), .adc 64 32 (.x 219) (.x 195) (.x 192), .set (.add 32 (.x 221) (.x 193)),
  .adc 64 32 (.c 0) (.x 175) (.x 206), .adc 64 32 (.x 224) (.x 177) (.x 208), .adc 64 32 (.x 226) (.x 179) (.x 210),
  .adc 64 32 (.x 228) (.x 181) (.x 212), .adc 64 32 (.x 230) (.x 183) (.x 214), .adc 64 32 (.x 232) (.x 185) (.x 216),
  .adc 64 32 (.x 234) (.x 187) (.x 218), .adc 64 32 (.x 236) (.x 189) (.x 220), .adc 64 32 (.x 238) (.x 191) (.x 222),
  .mulx 32 (.x 223) (.c 0x727c176d), .mulx 32 (.x 241) (.c 0x9b9f605f), .mulx 32 (.x 241) (.c 0x5a858107),
  .mulx 32 (.x 241) (.c 0xab1ec85e), .mulx 32 (.x 241) (.c 0x6b41c8aa), .mulx 32 (.x 241) (.c 0xcf846e86),
  .mulx 32 (.x 241) (.c 0x789051d3), .mulx 32 (.x 241) (.c 0x7998f7b9), .mulx 32 (.x 241) (.c 0x22d759b),
  .adc 64 32 (.c 0) (.x 258) (.x 255), .adc 64 32 (.x 260) (.x 256) (.x 253), .adc 64 32 (.x 262) (.x 254) (.x 251),
  .adc 64 32 (.x 264) (.x 252) (.x 249), .adc 64 32 (.x 266) (.x 250) (.x 247), .adc 64 32 (.x 268) (.x 248) (.x 245),
  .adc 64 32 (.x 270) (.x 246) (.x 243), .set (.add 32 (.x 272) (.x 244)), .adc 64 32 (.c 0) (.x 223) (.x 257),
  .adc 64 32 (.x 275) (.x 225) (.x 259), .adc 64 32 (.x 277) (.x 227) (.x 261), .adc 64 32 (.x 279) (.x 229) (.x 263),
  .adc 64 32 (.x 281) (.x 231) (.x 265), .adc 64 32 (.x 283) (.x 233) (.x 267), .adc 64 32 (.x 285) (.x 235) (.x 269),
  .adc 64 32 (.x 287) (.x 237) (.x 271), .adc 64 32 (.x 289) (.x 239) (.x 273), .set (.add 32 (.x 291) (.x 240)), .mulx 32 (.x 3) (.a 7),
  .mulx 32 (.x 3) (.a 6), .mulx 32 (.x 3) (.a 5), .mulx 32 (.x 3) (.a 4), .mulx 32 (.x 3) (.a 3), .mulx 32 (.x 3) (.a 2),
  .mulx 32 (.x 3) (.a 1), .mulx 32 (.x 3) (.a 0), .adc 64 32 (.c 0) (.x 308) (.x 305), .adc 64 32 (.x 310) (.x 306) (.x 303),
  .adc 64 32 (.x 312) (.x 304) (.x 301), .adc 64 32 (.x 314) (.x 302) (.x 299), .adc 64 32 (.x 316) (.x 300) (.x 297),
  .adc 64 32 (.x 318) (.x 298) (.x 295), .adc 64 32 (.x 320) (.x 296) (.x 293), .set (.add 32 (.x 322) (.x 294)),
  .adc 64 32 (.c 0) (.x 276) (.x 307), .adc 64 32 (.x 325) (.x 278) (.x 309), .adc 64 32 (.x 327) (.x 280) (.x 311),
  .adc 64 32 (.x 329) (.x 282) (.x 313), .adc 64 32 (.x 331) (.x 284) (.x 315), .adc 64 32 (.x 333) (.x 286) (.x 317),
  .adc 64 32 (.x 335) (.x 288) (.x 319), .adc 64 32 (.x 337) (.x 290) (.x 321), .adc 64 32 (.x 339) (.x 292) (.x 323),
  .mulx 32 (.x 324) (.c 0x727c176d), .mulx 32 (.x 342) (.c 0x9b9f605f), .mulx 32 (.x 342) (.c 0x5a858107),
  .mulx 32 (.x 342) (.c 0xab1ec85e), .mulx 32 (.x 342) (.c 0x6b41c8aa), .mulx 32 (.x 342) (.c 0xcf846e86),
  .mulx 32 (.x 342) (.c 0x789051d3), .mulx 32 (.x 342) (.c 0x7998f7b9), .mulx 32 (.x 342) (.c 0x22d759b),
  .adc 64 32 (.c 0) (.x 359) (.x 356), .adc 64 32 (.x 361) (.x 357) (.x 354), .adc 64 32 (.x 363) (.x 355) (.x 352),
  .adc 64 32 (.x 365) (.x 353) (.x 350), .adc 64 32 (.x 367) (.x 351) (.x 348), .adc 64 32 (.x 369) (.x 349) (.x 346),
  .adc 64 32 (.x 371) (.x 347) (.x 344), .set (.add 32 (.x 373) (.x 345)), .adc 64 32 (.c 0) (.x 324) (.x 358),
  .adc 64 32 (.x 376) (.x 326) (.x 360), .adc 64 32 (.x 378) (.x 328) (.x 362), .adc 64 32 (.x 380) (.x 330) (.x 364),
  .adc 64 32 (.x 382) (.x 332) (.x 366), .adc 64 32 (.x 384) (.x 334) (.x 368), .adc 64 32 (.x 386) (.x 336) (.x 370),
  .adc 64 32 (.x 388) (.x 338) (.x 372), .adc 64 32 (.x 390) (.x 340) (.x 374), .set (.add 32 (.x 392) (.x 341)), .mulx 32 (.x 4) (.a 7),
  .mulx 32 (.x 4) (.a 6), .mulx 32 (.x 4) (.a 5), .mulx 32 (.x 4) (.a 4), .mulx 32 (.x 4) (.a 3), .mulx 32 (.x 4) (.a 2),
  .mulx 32 (.x 4) (.a 1), .mulx 32 (.x 4) (.a 0), .adc 64 32 (.c 0) (.x 409) (.x 406), .adc 64 32 (.x 411) (.x 407) (.x 404),
  .adc 64 32 (.x 413) (.x 405) (.x 402), .adc 64 32 (.x 415) (.x 403) (.x 400), .adc 64 32 (.x 417) (.x 401) (.x 398),
  .adc 64 32 (.x 419) (.x 399) (.x 396), .adc 64 32 (.x 421) (.x 397) (.x 394), .set (.add 32 (.x 423) (.x 395)),
  .adc 64 32 (.c 0) (.x 377) (.x 408), .adc 64 32 (.x 426) (.x 379) (.x 410), .adc 64 32 (.x 428) (.x 381) (.x 412),
  .adc 64 32 (.x 430) (.x 383) (.x 414), .adc 64 32 (.x 432) (.x 385) (.x 416), .adc 64 32 (.x 434) (.x 387) (.x 418),
  .adc 64 32 (.x 436) (.x 389) (.x 420), .adc 64 32 (.x 438) (.x 391) (.x 422), .adc 64 32 (.x 440) (.x 393) (.x 424),
  .mulx 32 (.x 425) (.c 0x727c176d), .mulx 32 (.x 443) (.c 0x9b9f605f), .mulx 32 (.x 443) (.c 0x5a858107),
  .mulx 32 (.x 443) (.c 0xab1ec85e), .mulx 32 (.x 443) (.c 0x6b41c8aa), .mulx 32 (.x 443) (.c 0xcf846e86),
  .mulx 32 (.x 443) (.c 0x789051d3), .mulx 32 (.x 443) (.c 0x7998f7b9), .mulx 32 (.x 443) (.c 0x22d759b),
  .adc 64 32 (.c 0) (.x 460) (.x 457), .adc 64 32 (.x 462) (.x 458) (.x 455), .adc 64 32 (.x 464) (.x 456) (.x 453),
  .adc 64 32 (.x 466) (.x 454) (.x 451), .adc 64 32 (.x 468) (.x 452) (.x 449), .adc 64 32 (.x 470) (.x 450) (.x 447),
  .adc 64 32 (.x 472) (.x 448) (.x 445), .set (.add 32 (.x 474) (.x 446)), .adc 64 32 (.c 0) (.x 425) (.x 459),
  .adc 64 32 (.x 477) (.x 427) (.x 461), .adc 64 32 (.x 479) (.x 429) (.x 463), .adc 64 32 (.x 481) (.x 431) (.x 465),
  .adc 64 32 (.x 483) (.x 433) (.x 467), .adc 64 32 (.x 485) (.x 435) (.x 469), .adc 64 32 (.x 487) (.x 437) (.x 471),
  .adc 64 32 (.x 489) (.x 439) (.x 473), .adc 64 32 (.x 491) (.x 441) (.x 475), .set (.add 32 (.x 493) (.x 442)), .mulx 32 (.x 5) (.a 7),
  .mulx 32 (.x 5) (.a 6), .mulx 32 (.x 5) (.a 5), .mulx 32 (.x 5) (.a 4), .mulx 32 (.x 5) (.a 3), .mulx 32 (.x 5) (.a 2),
  .mulx 32 (.x 5) (.a 1), .mulx 32 (.x 5) (.a 0), .adc 64 32 (.c 0) (.x 510) (.x 507), .adc 64 32 (.x 512) (.x 508) (.x 505),
  .adc 64 32 (.x 514) (.x 506) (.x 503), .adc 64 32 (.x 516) (.x 504) (.x 501), .adc 64 32 (.x 518) (.x 502) (.x 499),
  .adc 64 32 (.x 520) (.x 500) (.x 497), .adc 64 32 (.x 522) (.x 498) (.x 495), .set (.add 32 (.x 524) (.x 496)),
  .adc 64 32 (.c 0) (.x 478) (.x 509), .adc 64 32 (.x 527) (.x 480) (.x 511), .adc 64 32 (.x 529) (.x 482) (.x 513),
  .adc 64 32 (.x 531) (.x 484) (.x 515), .adc 64 32 (.x 533) (.x 486) (.x 517), .adc 64 32 (.x 535) (.x 488) (.x 519),
  .adc 64 32 (.x 537) (.x 490) (.x 521), .adc 64 32 (.x 539) (.x 492) (.x 523), .adc 64 32 (.x 541) (.x 494) (.x 525),
  .mulx 32 (.x 526) (.c 0x727c176d), .mulx 32 (.x 544) (.c 0x9b9f605f), .mulx 32 (.x 544) (.c 0x5a858107),
  .mulx 32 (.x 544) (.c 0xab1ec85e), .mulx 32 (.x 544) (.c 0x6b41c8aa), .mulx 32 (.x 544) (.c 0xcf846e86),
  .mulx 32 (.x 544) (.c 0x789051d3), .mulx 32 (.x 544) (.c 0x7998f7b9), .mulx 32 (.x 544) (.c 0x22d759b),
  .adc 64 32 (.c 0) (.x 561) (.x 558), .adc 64 32 (.x 563) (.x 559) (.x 556), .adc 64 32 (.x 565) (.x 557) (.x 554),
  .adc 64 32 (.x 567) (.x 555) (.x 552), .adc 64 32 (.x 569) (.x 553) (.x 550), .adc 64 32 (.x 571) (.x 551) (.x 548),
  .adc 64 32 (.x 573) (.x 549) (.x 546), .set (.add 32 (.x 575) (.x 547)), .adc 64 32 (.c 0) (.x 526) (.x 560),
  .adc 64 32 (.x 578) (.x 528) (.x 562), .adc 64 32 (.x 580) (.x 530) (.x 564), .adc 64 32 (.x 582) (.x 532) (.x 566),
  .adc 64 32 (.x 584) (.x 534) (.x 568), .adc 64 32 (.x 586) (.x 536) (.x 570), .adc 64 32 (.x 588) (.x 538) (.x 572),
  .adc 64 32 (.x 590) (.x 540) (.x 574), .adc 64 32 (.x 592) (.x 542) (.x 576), .set (.add 32 (.x 594) (.x 543)), .mulx 32 (.x 6) (.a 7),
  .mulx 32 (.x 6) (.a 6), .mulx 32 (.x 6) (.a 5), .mulx 32 (.x 6) (.a 4), .mulx 32 (.x 6) (.a 3), .mulx 32 (.x 6) (.a 2),
  .mulx 32 (.x 6) (.a 1), .mulx 32 (.x 6) (.a 0), .adc 64 32 (.c 0) (.x 611) (.x 608), .adc 64 32 (.x 613) (.x 609) (.x 606),
  .adc 64 32 (.x 615) (.x 607) (.x 604), .adc 64 32 (.x 617) (.x 605) (.x 602), .adc 64 32 (.x 619) (.x 603) (.x 600),
  .adc 64 32 (.x 621) (.x 601) (.x 598), .adc 64 32 (.x 623) (.x 599) (.x 596), .set (.add 32 (.x 625) (.x 597)),
  .adc 64 32 (.c 0) (.x 579) (.x 610), .adc 64 32 (.x 628) (.x 581) (.x 612), .adc 64 32 (.x 630) (.x 583) (.x 614),
  .adc 64 32 (.x 632) (.x 585) (.x 616), .adc 64 32 (.x 634) (.x 587) (.x 618), .adc 64 32 (.x 636) (.x 589) (.x 620),
  .adc 64 32 (.x 638) (.x 591) (.x 622), .adc 64 32 (.x 640) (.x 593) (.x 624), .adc 64 32 (.x 642) (.x 595) (.x 626),
  .mulx 32 (.x 627) (.c 0x727c176d), .mulx 32 (.x 645) (.c 0x9b9f605f), .mulx 32 (.x 645) (.c 0x5a858107),
  .mulx 32 (.x 645) (.c 0xab1ec85e), .mulx 32 (.x 645) (.c 0x6b41c8aa), .mulx 32 (.x 645) (.c 0xcf846e86),
  .mulx 32 (.x 645) (.c 0x789051d3), .mulx 32 (.x 645) (.c 0x7998f7b9), .mulx 32 (.x 645) (.c 0x22d759b),
  .adc 64 32 (.c 0) (.x 662) (.x 659), .adc 64 32 (.x 664) (.x 660) (.x 657), .adc 64 32 (.x 666) (.x 658) (.x 655),
  .adc 64 32 (.x 668) (.x 656) (.x 653), .adc 64 32 (.x 670) (.x 654) (.x 651), .adc 64 32 (.x 672) (.x 652) (.x 649),
  .adc 64 32 (.x 674) (.x 650) (.x 647), .set (.add 32 (.x 676) (.x 648)), .adc 64 32 (.c 0) (.x 627) (.x 661),
  .adc 64 32 (.x 679) (.x 629) (.x 663), .adc 64 32 (.x 681) (.x 631) (.x 665), .adc 64 32 (.x 683) (.x 633) (.x 667),
  .adc 64 32 (.x 685) (.x 635) (.x 669), .adc 64 32 (.x 687) (.x 637) (.x 671), .adc 64 32 (.x 689) (.x 639) (.x 673),
  .adc 64 32 (.x 691) (.x 641) (.x 675), .adc 64 32 (.x 693) (.x 643) (.x 677), .set (.add 32 (.x 695) (.x 644)), .mulx 32 (.x 7) (.a 7),
  .mulx 32 (.x 7) (.a 6), .mulx 32 (.x 7) (.a 5), .mulx 32 (.x 7) (.a 4), .mulx 32 (.x 7) (.a 3), .mulx 32 (.x 7) (.a 2),
  .mulx 32 (.x 7) (.a 1), .mulx 32 (.x 7) (.a 0), .adc 64 32 (.c 0) (.x 712) (.x 709), .adc 64 32 (.x 714) (.x 710) (.x 707),
  .adc 64 32 (.x 716) (.x 708) (.x 705), .adc 64 32 (.x 718) (.x 706) (.x 703), .adc 64 32 (.x 720) (.x 704) (.x 701),
  .adc 64 32 (.x 722) (.x 702) (.x 699), .adc 64 32 (.x 724) (.x 700) (.x 697), .set (.add 32 (.x 726) (.x 698)),
  .adc 64 32 (.c 0) (.x 680) (.x 711), .adc 64 32 (.x 729) (.x 682) (.x 713), .adc 64 32 (.x 731) (.x 684) (.x 715),
  .adc 64 32 (.x 733) (.x 686) (.x 717), .adc 64 32 (.x 735) (.x 688) (.x 719), .adc 64 32 (.x 737) (.x 690) (.x 721),
  .adc 64 32 (.x 739) (.x 692) (.x 723), .adc 64 32 (.x 741) (.x 694) (.x 725), .adc 64 32 (.x 743) (.x 696) (.x 727),
  .mulx 32 (.x 728) (.c 0x727c176d), .mulx 32 (.x 746) (.c 0x9b9f605f), .mulx 32 (.x 746) (.c 0x5a858107),
  .mulx 32 (.x 746) (.c 0xab1ec85e), .mulx 32 (.x 746) (.c 0x6b41c8aa), .mulx 32 (.x 746) (.c 0xcf846e86),
  .mulx 32 (.x 746) (.c 0x789051d3), .mulx 32 (.x 746) (.c 0x7998f7b9), .mulx 32 (.x 746) (.c 0x22d759b),
  .adc 64 32 (.c 0) (.x 763) (.x 760), .adc 64 32 (.x 765) (.x 761) (.x 758), .adc 64 32 (.x 767) (.x 759) (.x 756),
  .adc 64 32 (.x 769) (.x 757) (.x 754), .adc 64 32 (.x 771) (.x 755) (.x 752), .adc 64 32 (.x 773) (.x 753) (.x 750),
  .adc 64 32 (.x 775) (.x 751) (.x 748), .set (.add 32 (.x 777) (.x 749)), .adc 64 32 (.c 0) (.x 728) (.x 762),
  .adc 64 32 (.x 780) (.x 730) (.x 764), .adc 64 32 (.x 782) (.x 732) (.x 766), .adc 64 32 (.x 784) (.x 734) (.x 768),
  .adc 64 32 (.x 786) (.x 736) (.x 770), .adc 64 32 (.x 788) (.x 738) (.x 772), .adc 64 32 (.x 790) (.x 740) (.x 774),
  .adc 64 32 (.x 792) (.x 742) (.x 776), .adc 64 32 (.x 794) (.x 744) (.x 778), .set (.add 32 (.x 796) (.x 745)),
  .sbb 64 32 (.c 0) (.x 781) (.c 0x22d759b), .sbb 64 32 (.x 799) (.x 783) (.c 0x7998f7b9), .sbb 64 32 (.x 801) (.x 785) (.c 0x789051d3),
  .sbb 64 32 (.x 803) (.x 787) (.c 0xcf846e86), .sbb 64 32 (.x 805) (.x 789) (.c 0x6b41c8aa), .sbb 64 32 (.x 807) (.x 791) (.c 0xab1ec85e),
  .sbb 64 32 (.x 809) (.x 793) (.c 0x5a858107), .sbb 64 32 (.x 811) (.x 795) (.c 0x9b9f605f), .sbb 64 32 (.x 813) (.x 797) (.c 0),
  .cmov 32 (.x 815) (.x 798) (.x 781), .cmov 32 (.x 815) (.x 800) (.x 783), .cmov 32 (.x 815) (.x 802) (.x 785),
  .cmov 32 (.x 815) (.x 804) (.x 787), .cmov 32 (.x 815) (.x 806) (.x 789), .cmov 32 (.x 815) (.x 808) (.x 791),
  .cmov 32 (.x 815) (.x 810) (.x 793), .cmov 32 (.x 815) (.x 812) (.x 795)], [816, 817, 818, 819, 820, 821, 822, 823]⟩

/-- `fiat_id_GostR3410_2001_CryptoPro_C_ParamSet_add`, lines 8640-8737. -/
def add : CProg := ⟨[
  .adc 64 32 (.c 0) (.a 0) (.b 0), .adc 64 32 (.x 2) (.a 1) (.b 1), .adc 64 32 (.x 4) (.a 2) (.b 2), .adc 64 32 (.x 6) (.a 3) (.b 3),
  .adc 64 32 (.x 8) (.a 4) (.b 4), .adc 64 32 (.x 10) (.a 5) (.b 5), .adc 64 32 (.x 12) (.a 6) (.b 6), .adc 64 32 (.x 14) (.a 7) (.b 7),
  .sbb 64 32 (.c 0) (.x 1) (.c 0x22d759b), .sbb 64 32 (.x 18) (.x 3) (.c 0x7998f7b9), .sbb 64 32 (.x 20) (.x 5) (.c 0x789051d3),
  .sbb 64 32 (.x 22) (.x 7) (.c 0xcf846e86), .sbb 64 32 (.x 24) (.x 9) (.c 0x6b41c8aa), .sbb 64 32 (.x 26) (.x 11) (.c 0xab1ec85e),
  .sbb 64 32 (.x 28) (.x 13) (.c 0x5a858107), .sbb 64 32 (.x 30) (.x 15) (.c 0x9b9f605f), .sbb 64 32 (.x 32) (.x 16) (.c 0),
  .cmov 32 (.x 34) (.x 17) (.x 1), .cmov 32 (.x 34) (.x 19) (.x 3), .cmov 32 (.x 34) (.x 21) (.x 5), .cmov 32 (.x 34) (.x 23) (.x 7),
  .cmov 32 (.x 34) (.x 25) (.x 9), .cmov 32 (.x 34) (.x 27) (.x 11), .cmov 32 (.x 34) (.x 29) (.x 13), .cmov 32 (.x 34) (.x 31) (.x 15)], [35, 36, 37, 38, 39, 40, 41, 42]⟩

/-- `fiat_id_GostR3410_2001_CryptoPro_C_ParamSet_sub`, lines 8754-8831. -/
def sub : CProg := ⟨[
  .sbb 64 32 (.c 0) (.a 0) (.b 0), .sbb 64 32 (.x 2) (.a 1) (.b 1), .sbb 64 32 (.x 4) (.a 2) (.b 2), .sbb 64 32 (.x 6) (.a 3) (.b 3),
  .sbb 64 32 (.x 8) (.a 4) (.b 4), .sbb 64 32 (.x 10) (.a 5) (.b 5), .sbb 64 32 (.x 12) (.a 6) (.b 6), .sbb 64 32 (.x 14) (.a 7) (.b 7),
  .cmov 32 (.x 16) (.c 0) (.c 0xffffffff), .adc 64 32 (.c 0) (.x 1) (.and (.x 17) (.c 0x22d759b)),
  .adc 64 32 (.x 19) (.x 3) (.and (.x 17) (.c 0x7998f7b9)), .adc 64 32 (.x 21) (.x 5) (.and (.x 17) (.c 0x789051d3)),
  .adc 64 32 (.x 23) (.x 7) (.and (.x 17) (.c 0xcf846e86)), .adc 64 32 (.x 25) (.x 9) (.and (.x 17) (.c 0x6b41c8aa)),
  .adc 64 32 (.x 27) (.x 11) (.and (.x 17) (.c 0xab1ec85e)), .adc 64 32 (.x 29) (.x 13) (.and (.x 17) (.c 0x5a858107)),
  .adc 64 32 (.x 31) (.x 15) (.and (.x 17) (.c 0x9b9f605f))], [18, 20, 22, 24, 26, 28, 30, 32]⟩

/-- `fiat_id_GostR3410_2001_CryptoPro_C_ParamSet_opp`, lines 8846-8923. -/
def opp : CProg := ⟨[
  .sbb 64 32 (.c 0) (.c 0) (.a 0), .sbb 64 32 (.x 2) (.c 0) (.a 1), .sbb 64 32 (.x 4) (.c 0) (.a 2), .sbb 64 32 (.x 6) (.c 0) (.a 3),
  .sbb 64 32 (.x 8) (.c 0) (.a 4), .sbb 64 32 (.x 10) (.c 0) (.a 5), .sbb 64 32 (.x 12) (.c 0) (.a 6), .sbb 64 32 (.x 14) (.c 0) (.a 7),
  .cmov 32 (.x 16) (.c 0) (.c 0xffffffff), .adc 64 32 (.c 0) (.x 1) (.and (.x 17) (.c 0x22d759b)),
  .adc 64 32 (.x 19) (.x 3) (.and (.x 17) (.c 0x7998f7b9)), .adc 64 32 (.x 21) (.x 5) (.and (.x 17) (.c 0x789051d3)),
  .adc 64 32 (.x 23) (.x 7) (.and (.x 17) (.c 0xcf846e86)), .adc 64 32 (.x 25) (.x 9) (.and (.x 17) (.c 0x6b41c8aa)),
  .adc 64 32 (.x 27) (.x 11) (.and (.x 17) (.c 0xab1ec85e)), .adc 64 32 (.x 29) (.x 13) (.and (.x 17) (.c 0x5a858107)),
  .adc 64 32 (.x 31) (.x 15) (.and (.x 17) (.c 0x9b9f605f))], [18, 20, 22, 24, 26, 28, 30, 32]⟩

/-- `fiat_id_GostR3410_2001_CryptoPro_C_ParamSet_from_montgomery`, lines 8938-9976. -/
def from_montgomery : CProg := ⟨[
  .set (.a 0), .mulx 32 (.x 1) (.c 0x727c176d), .mulx 32 (.x 2) (.c 0x9b9f605f), .mulx 32 (.x 2) (.c 0x5a858107),
  .mulx 32 (.x 2) (.c 0xab1ec85e), .mulx 32 (.x 2) (.c 0x6b41c8aa), .mulx 32 (.x 2) (.c 0xcf846e86), .mulx 32 (.x 2) (.c 0x789051d3),
  .mulx 32 (.x 2) (.c 0x7998f7b9), .mulx 32 (.x 2) (.c 0x22d759b), .adc 64 32 (.c 0) (.x 19) (.x 16), .adc 64 32 (.x 21) (.x 17) (.x 14),
  .adc 64 32 (.x 23) (.x 15) (.x 12), .adc 64 32 (.x 25) (.x 13) (.x 10), .adc 64 32 (.x 27) (.x 11) (.x 8),
  .adc 64 32 (.x 29) (.x 9) (.x 6), .adc 64 32 (.x 31) (.x 7) (.x 4), .adc 64 32 (.c 0) (.x 1) (.x 18), .adc 64 32 (.x 35) (.c 0) (.x 20),
  .adc 64 32 (.x 37) (.c 0) (.x 22), .adc 64 32 (.x 39) (.c 0) (.x 24), .adc 64 32 (.x 41) (.c 0) (.x 26),
  .adc 64 32 (.x 43) (.c 0) (.x 28), .adc 64 32 (.x 45) (.c 0) (.x 30), .adc 64 32 (.x 47) (.c 0) (.x 32), .adc 64 32 (.c 0) (.x 36) (.a 1),
  .adc 64 32 (.x 51) (.x 38) (.c 0), .adc 64 32 (.x 53) (.x 40) (.c 0), .adc 64 32 (.x 55) (.x 42) (.c 0),
  .adc 64 32 (.x 57) (.x 44) (.c 0), .adc 64 32 (.x 59) (.x 46) (.c 0), .adc 64 32 (.x 61) (.x 48) (.c 0), .mulx 32 (.x 50) (.c 0x727c176d),
  .mulx 32 (.x 64) (.c 0x9b9f605f), .mulx 32 (.x 64) (.c 0x5a858107), .mulx 32 (.x 64) (.c 0xab1ec85e), .mulx 32 (.x 64) (.c 0x6b41c8aa),
  .mulx 32 (.x 64) (.c 0xcf846e86), .mulx 32 (.x 64) (.c 0x789051d3), .mulx 32 (.x 64) (.c 0x7998f7b9), .mulx 32 (.x 64) (.c 0x22d759b),
  .adc 64 32 (.c 0) (.x 81) (.x 78), .adc 64 32 (.x 83) (.x 79) (.x 76), .adc 64 32 (.x 85) (.x 77) (.x 74),
  .adc 64 32 (.x 87) (.x 75) (.x 72), .adc 64 32 (.x 89) (.x 73) (.x 70), .adc 64 32 (.x 91) (.x 71) (.x 68),
  .adc 64 32 (.x 93) (.x 69) (.x 66), .adc 64 32 (.c 0) (.x 50) (.x 80), .adc 64 32 (.x 97) (.x 52) (.x 82),
  .adc 64 32 (.x 99) (.x 54) (.x 84), .adc 64 32 (.x 101) (.x 56) (.x 86), .adc 64 32 (.x 103) (.x 58) (.x 88),
  .adc 64 32 (.x 105) (.x 60) (.x 90), .adc 64 32 (.x 107) (.x 62) (.x 92),
  .adc 64 32 (.x 109) (.add 32 (.x 63) (.add 32 (.x 49) (.add 32 (.x 33) (.x 5)))) (.x 94), .adc 64 32 (.c 0) (.x 98) (.a 2),
  .adc 64 32 (.x 113) (.x 100) (.c 0), .adc 64 32 (.x 115) (.x 102) (.c 0), .adc 64 32 (.x 117) (.x 104) (.c 0),
  .adc 64 32 (.x 119) (.x 106) (.c 0), .adc 64 32 (.x 121) (.x 108) (.c 0), .adc 64 32 (.x 123) (.x 110) (.c 0),
  .mulx 32 (.x 112) (.c 0x727c176d), .mulx 32 (.x 126) (.c 0x9b9f605f), .mulx 32 (.x 126) (.c 0x5a858107),
  .mulx 32 (.x 126) (.c 0xab1ec85e), .mulx 32 (.x 126) (.c 0x6b41c8aa), .mulx 32 (.x 126) (.c 0xcf846e86),
  .mulx 32 (.x 126) (.c 0x789051d3), .mulx 32 (.x 126) (.c 0x7998f7b9), .mulx 32 (.x 126) (.c 0x22d759b),
  .adc 64 32 (.c 0) (.x 143) (.x 140), .adc 64 32 (.x 145) (.x 141) (.x 138), .adc 64 32 (.x 147) (.x 139) (.x 136),
  .adc 64 32 (.x 149) (.x 137) (.x 134), .adc 64 32 (.x 151) (.x 135) (.x 132), .adc 64 32 (.x 153) (.x 133) (.x 130),
  .adc 64 32 (.x 155) (.x 131) (.x 128), .adc 64 32 (.c 0) (.x 112) (.x 142), .adc 64 32 (.x 159) (.x 114) (.x 144),
  .adc 64 32 (.x 161) (.x 116) (.x 146), .adc 64 32 (.x 163) (.x 118) (.x 148), .adc 64 32 (.x 165) (.x 120) (.x 150),
  .adc 64 32 (.x 167) (.x 122) (.x 152), .adc 64 32 (.x 169) (.x 124) (.x 154),
  .adc 64 32 (.x 171) (.add 32 (.x 125) (.add 32 (.x 111) (.add 32 (.x 95) (.x 67)))) (.x 156), .adc 64 32 (.c 0) (.x 160) (.a 3),
  .adc 64 32 (.x 175) (.x 162) (.c 0), .adc 64 32 (.x 177) (.x 164) (.c 0), .adc 64 32 (.x 179) (.x 166) (.c 0),
  .adc 64 32 (.x 181) (.x 168) (.c 0), .adc 64 32 (.x 183) (.x 170) (.c 0), .adc 64 32 (.x 185) (.x 172) (.c 0),
  .mulx 32 (.x 174) (.c 0x727c176d), .mulx 32 (.x 188) (.c 0x9b9f605f), .mulx 32 (.x 188) (.c 0x5a858107),
  .mulx 32 (.x 188) (.c 0xab1ec85e), .mulx 32 (.x 188) (.c 0x6b41c8aa), .mulx 32 (.x 188) (.c 0xcf846e86),
  .mulx 32 (.x 188) (.c 0x789051d3), .mulx 32 (.x 188) (.c 0x7998f7b9), .mulx 32 (.x 188) (.c 0x22d759b),
  .adc 64 32 (.c 0) (.x 205) (.x 202), .adc 64 32 (.x 207) (.x 203) (.x 200), .adc 64 32 (.x 209) (.x 201) (.x 198),
  .adc 64 32 (.x 211) (.x 199) (.x 196), .adc 64 32 (.x 213) (.x 197) (.x 194), .adc 64 32 (.x 215) (.x 195) (.x 192),
  .adc 64 32 (.x 217) (.x 193) (.x 190), .adc 64 32 (.c 0) (.x 174) (.x 204), .adc 64 32 (.x 221) (.x 176) (.x 206),
  .adc 64 32 (.x 223) (.x 178) (.x 208), .adc 64 32 (.x 225) (.x 180) (.x 210), .adc 64 32 (.x 227) (.x 182) (.x 212),
  .adc 64 32 (.x 229) (.x 184) (.x 214), .adc 64 32 (.x 231) (.x 186) (.x 216),
  .adc 64 32 (.x 233) (.add 32 (.x 187) (.add 32 (.x 173) (.add 32 (.x 157) (.x 129)))) (.x 218), .adc 64 32 (.c 0) (.x 222) (.a 4),
  .adc 64 32 (.x 237) (.x 224) (.c 0), .adc 64 32 (.x 239) (.x 226) (.c 0), .adc 64 32 (.x 241) (.x 228) (.c 0),
  .adc 64 32 (.x 243) (.x 230) (.c 0), .adc 64 32 (.x 245) (.x 232) (.c 0), .adc 64 32 (.x 247) (.x 234) (.c 0),
  .mulx 32 (.x 236) (.c 0x727c176d), .mulx 32 (.x 250) (.c 0x9b9f605f), .mulx 32 (.x 250) (.c 0x5a858107),
  .mulx 32 (.x 250) (.c 0xab1ec85e), .mulx 32 (.x 250) (.c 0x6b41c8aa), .mulx 32 (.x 250) (.c 0xcf846e86),
  .mulx 32 (.x 250) (.c 0x789051d3), .mulx 32 (.x 250) (.c 0x7998f7b9), .mulx 32 (.x 250) (.c 0x22d759b),
  .adc 64 32 (.c 0) (.x 267) (.x 264), .adc 64 32 (.x 269) (.x 265) (.x 262), .adc 64 32 (.x 271) (.x 263) (.x 260),
  .adc 64 32 (.x 273) (.x 261) (.x 258), .adc 64 32 (.x 275) (.x 259) (.x 256), .adc 64 32 (.x 277) (.x 257) (.x 254),
  .adc 64 32 (.x 279) (.x 255) (.x 252), .adc 64 32 (.c 0) (.x 236) (.x 266), .adc 64 32 (.x 283) (.x 238) (.x 268),
  .adc 64 32 (.x 285) (.x 240) (.x 270), .adc 64 32 (.x 287) (.x 242) (.x 272), .adc 64 32 (.x 289) (.x 244) (.x 274),
  .adc 64 32 (.x 291) (.x 246) (.x 276), .adc 64 32 (.x 293) (.x 248) (.x 278),
  .adc 64 32 (.x 295) (.add 32 (.x 249) (.add 32 (.x 235) (.add 32 (.x 219) (.x 191)))) (.x 280), .adc 64 32 (.c 0) (.x 284) (.a 5),
  .adc 64 32 (.x 299) (.x 286) (.c 0), .adc 64 32 (.x 301) (.x 288) (.c 0), .adc 64 32 (.x 303) (.x 290) (.c 0),
  .adc 64 32 (.x 305) (.x 292) (.c 0), .adc 64 32 (.x 307) (.x 294) (.c 0), .adc 64 32 (.x 309) (.x 296) (.c 0),
  .mulx 32 (.x 298) (.c 0x727c176d), .mulx 32 (.x 312) (.c 0x9b9f605f), .mulx 32 (.x 312) (.c 0x5a858107),
  .mulx 32 (.x 312) (.c 0xab1ec85e), .mulx 32 (.x 312) (.c 0x6b41c8aa), .mulx 32 (.x 312) (.c 0xcf846e86),
  .mulx 32 (.x 312) (.c 0x789051d3), .mulx 32 (.x 312) (.c 0x7998f7b9), .mulx 32 (.x 312) (.c 0x22d759b),
  .adc 64 32 (.c 0) (.x 329) (.x 326), .adc 64 32 (.x 331) (.x 327) (.x 324), .adc 64 32 (.x 333) (.x 325) (.x 322),
  .adc 64 32 (.x 335) (.x 323) (.x 320), .adc 64 32 (.x 337) (.x 321) (.x 318), .adc 64 32 (.x 339) (.x 319) (.x 316),
  .adc 64 32 (.x 341) (.x 317) (.x 314), .adc 64 32 (.c 0) (.x 298) (.x 328), .adc 64 32 (.x 345) (.x 300) (.x 330),
  .adc 64 32 (.x 347) (.x 302) (.x 332), .adc 64 32 (.x 349) (.x 304) (.x 334), .adc 64 32 (.x 351) (.x 306) (.x 336),
  .adc 64 32 (.x 353) (.x 308) (.x 338), .adc 64 32 (.x 355) (.x 310) (.x 340),
  .adc 64 32 (.x 357) (.add 32 (.x 311) (.add 32 (.x 297) (.add 32 (.x 281) (.x 253)))) (.x 342), .adc 64 32 (.c 0) (.x 346) (.a 6),
  .adc 64 32 (.x 361) (.x 348) (.c 0), .adc 64 32 (.x 363) (.x 350) (.c 0), .adc 64 32 (.x 365) (.x 352) (.c 0),
  .adc 64 32 (.x 367) (.x 354) (.c 0), .adc 64 32 (.x 369) (.x 356) (.c 0), .adc 64 32 (.x 371) (.x 358) (.c 0),
  .mulx 32 (.x 360) (.c 0x727c176d), .mulx 32 (.x 374) (.c 0x9b9f605f), .mulx 32 (.x 374) (.c 0x5a858107),
  .mulx 32 (.x 374) (.c 0xab1ec85e), .mulx 32 (.x 374) (.c 0x6b41c8aa), .mulx 32 (.x 374) (.c 0xcf846e86),
  .mulx 32 (.x 374) (.c 0x789051d3), .mulx 32 (.x 374) (.c 0x7998f7b9), .mulx 32 (.x 374) (.c 0x22d759b),
  .adc 64 32 (.c 0) (.x 391) (.x 388), .adc 64 32 (.x 393) (.x 389) (.x 386), .adc 64 32 (.x 395) (.x 387) (.x 384),
  .adc 64 32 (.x 397) (.x 385) (.x 382), .adc 64 32 (.x 399) (.x 383) (.x 380), .adc 64 32 (.x 401) (.x 381) (.x 378),
  .adc 64 32 (.x 403) (.x 379) (.x 376), .adc 64 32 (.c 0) (.x 360) (.x 390), .adc 64 32 (.x 407) (.x 362) (.x 392),
  .adc 64 32 (.x 409) (.x 364) (.x 394), .adc 64 32 (.x 411) (.x 366) (.x 396), .adc 64 32 (.x 413) (.x 368) (.x 398),
  .adc 64 32 (.x 415) (.x 370) (.x 400), .adc 64 32 (.x 417) (.x 372) (.x 402),
  .adc 64 32 (.x 419) (.add 32 (.x 373) (.add 32 (.x 359) (.add 32 (.x 343) (.x 315)))) (.x 404), .adc 64 32 (.c 0) (.x 408) (.a 7),
  .adc 64 32 (.x 423) (.x 410) (.c 0), .adc 64 32 (.x 425) (.x 412) (.c 0), .adc 64 32 (.x 427) (.x 414) (.c 0),
  .adc 64 32 (.x 429) (.x 416) (.c 0), .adc 64 32 (.x 431) (.x 418) (.c 0), .adc 64 32 (.x 433) (.x 420) (.c 0),
  .mulx 32 (.x 422) (.c 0x727c176d), .mulx 32 (.x 436) (.c 0x9b9f605f), .mulx 32 (.x 436) (.c 0x5a858107),
  .mulx 32 (.x 436) (.c 0xab1ec85e), .mulx 32 (.x 436) (.c 0x6b41c8aa), .mulx 32 (.x 436) (.c 0xcf846e86),
  .mulx 32 (.x 436) (.c 0x789051d3), .mulx 32 (.x 436) (.c 0x7998f7b9), .mulx 32 (.x 436) (.c 0x22d759b),
  .adc 64 32 (.c 0) (.x 453) (.x 450), .adc 64 32 (.x 455) (.x 451) (.x 448), .adc 64 32 (.x 457) (.x 449) (.x 446),
  .adc 64 32 (.x 459) (.x 447) (.x 444), .adc 64 32 (.x 461) (.x 445) (.x 442), .adc 64 32 (.x 463) (.x 443) (.x 440),
  .adc 64 32 (.x 465) (.x 441) (.x 438), .adc 64 32 (.c 0) (.x 422) (.x 452), .adc 64 32 (.x 469) (.x 424) (.x 454),
  .adc 64 32 (.x 471) (.x 426) (.x 456), .adc 64 32 (.x 473) (.x 428) (.x 458), .adc 64 32 (.x 475) (.x 430) (.x 460),
  .adc 64 32 (.x 477) (.x 432) (.x 462), .adc 64 32 (.x 479) (.x 434) (.x 464),
  .adc 64 32 (.x 481) (.add 32 (.x 435) (.add 32 (.x 421) (.add 32 (.x 405) (.x 377)))) (.x 466),
  .set (.add 32 (.x 483) (.add 32 (.x 467) (.x 439))), .sbb 64 32 (.c 0) (.x 470) (.c 0x22d759b),
  .sbb 64 32 (.x 486) (.x 472) (.c 0x7998f7b9), .sbb 64 32 (.x 488) (.x 474) (.c 0x789051d3), .sbb 64 32 (.x 490) (.x 476) (.c 0xcf846e86),
  .sbb 64 32 (.x 492) (.x 478) (.c 0x6b41c8aa), .sbb 64 32 (.x 494) (.x 480) (.c 0xab1ec85e), .sbb 64 32 (.x 496) (.x 482) (.c 0x5a858107),
  .sbb 64 32 (.x 498) (.x 484) (.c 0x9b9f605f), .sbb 64 32 (.x 500) (.c 0) (.c 0), .cmov 32 (.x 502) (.x 485) (.x 470),
  .cmov 32 (.x 502) (.x 487) (.x 472), .cmov 32 (.x 502) (.x 489) (.x 474), .cmov 32 (.x 502) (.x 491) (.x 476),
  .cmov 32 (.x 502) (.x 493) (.x 478), .cmov 32 (.x 502) (.x 495) (.x 480), .cmov 32 (.x 502) (.x 497) (.x 482),
  .cmov 32 (.x 502) (.x 499) (.x 484)], [503, 504, 505, 506, 507, 508, 509, 510]⟩

/-- `fiat_id_GostR3410_2001_CryptoPro_C_ParamSet_to_montgomery`, lines 9991-11588. -/
def to_montgomery : CProg := ⟨[
  .set (.a 1), .set (.a 2), .set (.a 3), .set (.a 4), .set (.a 5), .set (.a 6), .set (.a 7), .set (.a 0), .mulx 32 (.x 8) (.c 0x807a394e),
  .mulx 32 (.x 8) (.c 0xde097652), .mulx 32 (.x 8) (.c 0x18630421), .mulx 32 (.x 8) (.c 0x2849c07b), .mulx 32 (.x 8) (.c 0x1017bb39),
  .mulx 32 (.x 8) (.c 0xc2d346c5), .mulx 32 (.x 8) (.c 0x409973b4), .mulx 32 (.x 8) (.c 0xc427fcea), .adc 64 32 (.c 0) (.x 24) (.x 21),
  .adc 64 32 (.x 26) (.x 22) (.x 19), .adc 64 32 (.x 28) (.x 20) (.x 17), .adc 64 32 (.x 30) (.x 18) (.x 15),
  .adc 64 32 (.x 32) (.x 16) (.x 13), .adc 64 32 (.x 34) (.x 14) (.x 11), .adc 64 32 (.x 36) (.x 12) (.x 9),
  .mulx 32 (.x 23) (.c 0x727c176d), .mulx 32 (.x 39) (.c 0x9b9f605f), .mulx 32 (.x 39) (.c 0x5a858107), .mulx 32 (.x 39) (.c 0xab1ec85e),
  .mulx 32 (.x 39) (.c 0x6b41c8aa), .mulx 32 (.x 39) (.c 0xcf846e86), .mulx 32 (.x 39) (.c 0x789051d3), .mulx 32 (.x 39) (.c 0x7998f7b9),
  .mulx 32 (.x 39) (.c 0x22d759b), .adc 64 32 (.c 0) (.x 56) (.x 53), .adc 64 32 (.x 58) (.x 54) (.x 51),
  .adc 64 32 (.x 60) (.x 52) (.x 49), .adc 64 32 (.x 62) (.x 50) (.x 47), .adc 64 32 (.x 64) (.x 48) (.x 45),
  .adc 64 32 (.x 66) (.x 46) (.x 43), .adc 64 32 (.x 68) (.x 44) (.x 41), .adc 64 32 (.c 0) (.x 23) (.x 55),
  .adc 64 32 (.x 72) (.x 25) (.x 57), .adc 64 32 (.x 74) (.x 27) (.x 59), .adc 64 32 (.x 76) (.x 29) (.x 61),
  .adc 64 32 (.x 78) (.x 31) (.x 63), .adc 64 32 (.x 80) (.x 33) (.x 65), .adc 64 32 (.x 82) (.x 35) (.x 67),
  .adc 64 32 (.x 84) (.x 37) (.x 69), .adc 64 32 (.x 86) (.add 32 (.x 38) (.x 10)) (.add 32 (.x 70) (.x 42)),
  .mulx 32 (.x 1) (.c 0x807a394e), .mulx 32 (.x 1) (.c 0xde097652), .mulx 32 (.x 1) (.c 0x18630421), .mulx 32 (.x 1) (.c 0x2849c07b),
  .mulx 32 (.x 1) (.c 0x1017bb39), .mulx 32 (.x 1) (.c 0xc2d346c5), .mulx 32 (.x 1) (.c 0x409973b4), .mulx 32 (.x 1) (.c 0xc427fcea),
  .adc 64 32 (.c 0) (.x 104) (.x 101), .adc 64 32 (.x 106) (.x 102) (.x 99), .adc 64 32 (.x 108) (.x 100) (.x 97),
  .adc 64 32 (.x 110) (.x 98) (.x 95), .adc 64 32 (.x 112) (.x 96) (.x 93), .adc 64 32 (.x 114) (.x 94) (.x 91),
  .adc 64 32 (.x 116) (.x 92) (.x 89), .adc 64 32 (.c 0) (.x 73) (.x 103), .adc 64 32 (.x 120) (.x 75) (.x 105),
  .adc 64 32 (.x 122) (.x 77) (.x 107), .adc 64 32 (.x 124) (.x 79) (.x 109), .adc 64 32 (.x 126) (.x 81) (.x 111),
  .adc 64 32 (.x 128) (.x 83) (.x 113), .adc 64 32 (.x 130) (.x 85) (.x 115), .adc 64 32 (.x 132) (.x 87) (.x 117),
  .mulx 32 (.x 119) (.c 0x727c176d), .mulx 32 (.x 135) (.c 0x9b9f605f), .mulx 32 (.x 135) (.c 0x5a858107),
  .mulx 32 (.x 135) (.c 0xab1ec85e), .mulx 32 (.x 135) (.c 0x6b41c8aa), .mulx 32 (.x 135) (.c 0xcf846e86),
  .mulx 32 (.x 135) (.c 0x789051d3), .mulx 32 (.x 135) (.c 0x7998f7b9), .mulx 32 (.x 135) (.c 0x22d759b),
  .adc 64 32 (.c 0) (.x 152) (.x 149), .adc 64 32 (.x 154) (.x 150) (.x 147), .adc 64 32 (.x 156) (.x 148) (.x 145),
  .adc 64 32 (.x 158) (.x 146) (.x 143), .adc 64 32 (.x 160) (.x 144) (.x 141), .adc 64 32 (.x 162) (.x 142) (.x 139),
  .adc 64 32 (.x 164) (.x 140) (.x 137), .adc 64 32 (.c 0) (.x 119) (.x 151), .adc 64 32 (.x 168) (.x 121) (.x 153),
  .adc 64 32 (.x 170) (.x 123) (.x 155), .adc 64 32 (.x 172) (.x 125) (.x 157), .adc 64 32 (.x 174) (.x 127) (.x 159),
  .adc 64 32 (.x 176) (.x 129) (.x 161), .adc 64 32 (.x 178) (.x 131) (.x 163), .adc 64 32 (.x 180) (.x 133) (.x 165),
  .adc 64 32 (.x 182) (.add 32 (.add 32 (.x 134) (.x 88)) (.add 32 (.x 118) (.x 90))) (.add 32 (.x 166) (.x 138)),
  .mulx 32 (.x 2) (.c 0x807a394e), .mulx 32 (.x 2) (.c 0xde097652), .mulx 32 (.x 2) (.c 0x18630421), .mulx 32 (.x 2) (.c 0x2849c07b),
  .mulx 32 (.x 2) (.c 0x1017bb39), .mulx 32 (.x 2) (.c 0xc2d346c5), .mulx 32 (.x 2) (.c 0x409973b4), .mulx 32 (.x 2) (.c 0xc427fcea),
  .adc 64 32 (.c 0) (.x 200) (.x 197), .adc 64 32 (.x 202) (.x 198) (.x 195), .adc 64 32 (.x 204) (.x 196) (.x 193),
  .adc 64 32 (.x 206) (.x 194) (.x 191), .adc 64 32 (.x 208) (.x 192) (.x 189), .adc 64 32 (.x 210) (.x 190) (.x 187),
  .adc 64 32 (.x 212) (.x 188) (.x 185), .adc 64 32 (.c 0) (.x 169) (.x 199), .adc 64 32 (.x 216) (.x 171) (.x 201),
  .adc 64 32 (.x 218) (.x 173) (.x 203), .adc 64 32 (.x 220) (.x 175) (.x 205), .adc 64 32 (.x 222) (.x 177) (.x 207),
  .adc 64 32 (.x 224) (.x 179) (.x 209), .adc 64 32 (.x 226) (.x 181) (.x 211), .adc 64 32 (.x 228) (.x 183) (.x 213),
  .mulx 32 (.x 215) (.c 0x727c176d), .mulx 32 (.x 231) (.c 0x9b9f605f), .mulx 32 (.x 231) (.c 0x5a858107),
  .mulx 32 (.x 231) (.c 0xab1ec85e), .mulx 32 (.x 231) (.c 0x6b41c8aa), .mulx 32 (.x 231) (.c 0xcf846e86),
  .mulx 32 (.x 231) (.c 0x789051d3), .mulx 32 (.x 231) (.c 0x7998f7b9), .mulx 32 (.x 231) (.c 0x22d759b),
  .adc 64 32 (.c 0) (.x 248) (.x 245), .adc 64 32 (.x 250) (.x 246) (.x 243), .adc 64 32 (.x 252) (.x 244) (.x 241),
  .adc 64 32 (.x 254) (.x 242) (.x 239), .adc 64 32 (.x 256) (.x 240) (.x 237), .adc 64 32 (.x 258) (.x 238) (.x 235),
  .adc 64 32 (.x 260) (.x 236) (.x 233), .adc 64 32 (.c 0) (.x 215) (.x 247), .adc 64 32 (.x 264) (.x 217) (.x 249),
  .adc 64 32 (.x 266) (.x 219) (.x 251), .adc 64 32 (.x 268) (.x 221) (.x 253), .adc 64 32 (.x 270) (.x 223) (.x 255),
  .adc 64 32 (.x 272) (.x 225) (.x 257), .adc 64 32 (.x 274) (.x 227) (.x 259), .adc 64 32 (.x 276) (.x 229) (.x 261),
  .adc 64 32 (.x 278) (.add 32 (.add 32 (.x 230) (.x 184)) (.add 32 (.x 214) (.x 186))) (.add 32 (.x 262) (.x 234)),
  .mulx 32 (.x 3) (.c 0x807a394e), .mulx 32 (.x 3) (.c 0xde097652), .mulx 32 (.x 3) (.c 0x18630421), .mulx 32 (.x 3) (.c 0x2849c07b),
  .mulx 32 (.x 3) (.c 0x1017bb39), .mulx 32 (.x 3) (.c 0xc2d346c5), .mulx 32 (.x 3) (.c 0x409973b4), .mulx 32 (.x 3) (.c 0xc427fcea),
  .adc 64 32 (.c 0) (.x 296) (.x 293), .adc 64 32 (.x 298) (.x 294) (.x 291), .adc 64 32 (.x 300) (.x 292) (.x 289),
  .adc 64 32 (.x 302) (.x 290) (.x 287), .adc 64 32 (.x 304) (.x 288) (.x 285), .adc 64 32 (.x 306) (.x 286) (.x 283),
  .adc 64 32 (.x 308) (.x 284) (.x 281), .adc 64 32 (.c 0) (.x 265) (.x 295), .adc 64 32 (.x 312) (.x 267) (.x 297),
  .adc 64 32 (.x 314) (.x 269) (.x 299), .adc 64 32 (.x 316) (.x 271) (.x 301), .adc 64 32 (.x 318) (.x 273) (.x 303),
  .adc 64 32 (.x 320) (.x 275) (.x 305), .adc 64 32 (.x 322) (.x 277) (.x 307), .adc 64 32 (.x 324) (.x 279) (.x 309),
  .mulx 32 (.x 311) (.c 0x727c176d), .mulx 32 (.x 327) (.c 0x9b9f605f), .mulx 32 (.x 327) (.c 0x5a858107),
  .mulx 32 (.x 327) (.c 0xab1ec85e), .mulx 32 (.x 327) (.c 0x6b41c8aa), .mulx 32 (.x 327) (.c 0xcf846e86),
  .mulx 32 (.x 327) (.c 0x789051d3), .mulx 32 (.x 327) (.c 0x7998f7b9), .mulx 32 (.x 327) (.c 0x22d759b),
  .adc 64 32 (.c 0) (.x 344) (.x 341), .adc 64 32 (.x 346) (.x 342) (.x 339), .adc 64 32 (.x 348) (.x 340) (.x 337),
  .adc 64 32 (.x 350) (.x 338) (.x 335), .adc 64 32 (.x 352) (.x 336) (.x 333), .adc 64 32 (.x 354) (.x 334) (.x 331),
  .adc 64 32 (.x 356) (.x 332) (.x 329), .adc 64 32 (.c 0) (.x 311) (.x 343), .adc 64 32 (.x 360) (.x 313) (.x 345),
  .adc 64 32 (.x 362) (.x 315) (.x 347), .adc 64 32 (.x 364) (.x 317) (.x 349), .adc 64 32 (.x 366) (.x 319) (.x 351),
  .adc 64 32 (.x 368) (.x 321) (.x 353), .adc 64 32 (.x 370) (.x 323) (.x 355), .adc 64 32 (.x 372) (.x 325) (.x 357),
  .adc 64 32 (.x 374) (.add 32 (.add 32 (.x 326) (.x 280)) (.add 32 (.x 310) (.x 282))) (.add 32 (.x 358) (.x 330)),
  .mulx 32 (.x 4) (.c 0x807a394e), .mulx 32 (.x 4) (.c 0xde097652), .mulx 32 (.x 4) (.c 0x18630421), .mulx 32 (.x 4) (.c 0x2849c07b),
  .mulx 32 (.x 4) (.c 0x1017bb39), .mulx 32 (.x 4) (.c 0xc2d346c5), .mulx 32 (.x 4) (.c 0x409973b4), .mulx 32 (.x 4) (.c 0xc427fcea),
  .adc 64 32 (.c 0) (.x 392) (.x 389), .adc 64 32 (.x 394) (.x 390) (.x 387), .adc 64 32 (.x 396) (.x 388) (.x 385),
  .adc 64 32 (.x 398) (.x 386) (.x 383), .adc 64 32 (.x 400) (.x 384) (.x 381), .adc 64 32 (.x 402) (.x 382) (.x 379),
  .adc 64 32 (.x 404) (.x 380) (.x 377), .adc 64 32 (.c 0) (.x 361) (.x 391), .adc 64 32 (.x 408) (.x 363) (.x 393),
  .adc 64 32 (.x 410) (.x 365) (.x 395), .adc 64 32 (.x 412) (.x 367) (.x 397), .adc 64 32 (.x 414) (.x 369) (.x 399),
  .adc 64 32 (.x 416) (.x 371) (.x 401), .adc 64 32 (.x 418) (.x 373) (.x 403), .adc 64 32 (.x 420) (.x 375) (.x 405),
  .mulx 32 (.x 407) (.c 0x727c176d), .mulx 32 (.x 423) (.c 0x9b9f605f), .mulx 32 (.x 423) (.c 0x5a858107),
  .mulx 32 (.x 423) (.c 0xab1ec85e), .mulx 32 (.x 423) (.c 0x6b41c8aa), .mulx 32 (.x 423) (.c 0xcf846e86),
  .mulx 32 (.x 423) (.c 0x789051d3), .mulx 32 (.x 423) (.c 0x7998f7b9), .mulx 32 (.x 423) (.c 0x22d759b),
  .adc 64 32 (.c 0) (.x 440) (.x 437), .adc 64 32 (.x 442) (.x 438) (.x 435), .adc 64 32 (.x 444) (.x 436) (.x 433),
  .adc 64 32 (.x 446) (.x 434) (.x 431), .adc 64 32 (.x 448) (.x 432) (.x 429), .adc 64 32 (.x 450) (.x 430) (.x 427),
  .adc 64 32 (.x 452) (.x 428) (.x 425), .adc 64 32 (.c 0) (.x 407) (.x 439), .adc 64 32 (.x 456) (.x 409) (.x 441),
  .adc 64 32 (.x 458) (.x 411) (.x 443), .adc 64 32 (.x 460) (.x 413) (.x 445), .adc 64 32 (.x 462) (.x 415) (.x 447),
  .adc 64 32 (.x 464) (.x 417) (.x 449), .adc 64 32 (.x 466) (.x 419) (.x 451), .adc 64 32 (.x 468) (.x 421) (.x 453),
  .adc 64 32 (.x 470) (.add 32 (.add 32 (.x 422) (.x 376)) (.add 32 (.x 406) (.x 378))) (.add 32 (.x 454) (.x 426)),
  .mulx 32 (.x 5) (.c 0x807a394e), .mulx 32 (.x 5) (.c 0xde097652), .mulx 32 (.x 5) (.c 0x18630421), .mulx 32 (.x 5) (.c 0x2849c07b),
  .mulx 32 (.x 5) (.c 0x1017bb39), .mulx 32 (.x 5) (.c 0xc2d346c5), .mulx 32 (.x 5) (.c 0x409973b4), .mulx 32 (.x 5) (.c 0xc427fcea),
  .adc 64 32 (.c 0) (.x 488) (.x 485), .adc 64 32 (.x 490) (.x 486) (.x 483), .adc 64 32 (.x 492) (.x 484) (.x 481),
  .adc 64 32 (.x 494) (.x 482) (.x 479), .adc 64 32 (.x 496) (.x 480) (.x 477), .adc 64 32 (.x 498) (.x 478) (.x 475),
  .adc 64 32 (.x 500) (.x 476) (.x 473), .adc 64 32 (.c 0) (.x 457) (.x 487), .adc 64 32 (.x 504) (.x 459) (.x 489),
  .adc 64 32 (.x 506) (.x 461) (.x 491), .adc 64 32 (.x 508) (.x 463) (.x 493), .adc 64 32 (.x 510) (.x 465) (.x 495),
  .adc 64 32 (.x 512) (.x 467) (.x 497), .adc 64 32 (.x 514) (.x 469) (.x 499), .adc 64 32 (.x 516) (.x 471) (.x 501),
  .mulx 32 (.x 503) (.c 0x727c176d), .mulx 32 (.x 519) (.c 0x9b9f605f), .mulx 32 (.x 519) (.c 0x5a858107),
  .mulx 32 (.x 519) (.c 0xab1ec85e), .mulx 32 (.x 519) (.c 0x6b41c8aa), .mulx 32 (.x 519) (.c 0xcf846e86),
  .mulx 32 (.x 519) (.c 0x789051d3), .mulx 32 (.x 519) (.c 0x7998f7b9), .mulx 32 (.x 519) (.c 0x22d759b),
  .adc 64 32 (.c 0) (.x 536) (.x 533), .adc 64 32 (.x 538) (.x 534) (.x 531), .adc 64 32 (.x 540) (.x 532) (.x 529),
  .adc 64 32 (.x 542) (.x 530) (.x 527), .adc 64 32 (.x 544) (.x 528) (.x 525), .adc 64 32 (.x 546) (.x 526) (.x 523),
  .adc 64 32 (.x 548) (.x 524) (.x 521), .adc 64 32 (.c 0) (.x 503) (.x 535), .adc 64 32 (.x 552) (.x 505) (.x 537),
  .adc 64 32 (.x 554) (.x 507) (.x 539), .adc 64 32 (.x 556) (.x 509) (.x 541), .adc 64 32 (.x 558) (.x 511) (.x 543),
  .adc 64 32 (.x 560) (.x 513) (.x 545), .adc 64 32 (.x 562) (.x 515) (.x 547), .adc 64 32 (.x 564) (.x 517) (.x 549),
  .adc 64 32 (.x 566) (.add 32 (.add 32 (.x 518) (.x 472)) (.add 32 (.x 502) (.x 474))) (.add 32 (.x 550) (.x 522)),
  .mulx 32 (.x 6) (.c 0x807a394e), .mulx 32 (.x 6) (.c 0xde097652), .mulx 32 (.x 6) (.c 0x18630421), .mulx 32 (.x 6) (.c 0x2849c07b),
  .mulx 32 (.x 6) (.c 0x1017bb39), .mulx 32 (.x 6) (.c 0xc2d346c5), .mulx 32 (.x 6) (.c 0x409973b4), .mulx 32 (.x 6) (.c 0xc427fcea),
  .adc 64 32 (.c 0) (.x 584) (.x 581), .adc 64 32 (.x 586) (.x 582) (.x 579), .adc 64 32 (.x 588) (.x 580) (.x 577),
  .adc 64 32 (.x 590) (.x 578) (.x 575), .adc 64 32 (.x 592) (.x 576) (.x 573), .adc 64 32 (.x 594) (.x 574) (.x 571),
  .adc 64 32 (.x 596) (.x 572) (.x 569), .adc 64 32 (.c 0) (.x 553) (.x 583), .adc 64 32 (.x 600) (.x 555) (.x 585),
  .adc 64 32 (.x 602) (.x 557) (.x 587), .adc 64 32 (.x 604) (.x 559) (.x 589), .adc 64 32 (.x 606) (.x 561) (.x 591),
  .adc 64 32 (.x 608) (.x 563) (.x 593), .adc 64 32 (.x 610) (.x 565) (.x 595), .adc 64 32 (.x 612) (.x 567) (.x 597),
  .mulx 32 (.x 599) (.c 0x727c176d), .mulx 32 (.x 615) (.c 0x9b9f605f), .mulx 32 (.x 615) (.c 0x5a858107),
  .mulx 32 (.x 615) (.c 0xab1ec85e), .mulx 32 (.x 615) (.c 0x6b41c8aa), .mulx 32 (.x 615) (.c 0xcf846e86),
  .mulx 32 (.x 615) (.c 0x789051d3), .mulx 32 (.x 615) (.c 0x7998f7b9), .mulx 32 (.x 615) (.c 0x22d759b),
  .adc 64 32 (.c 0) (.x 632) (.x 629), .adc 64 32 (.x 634) (.x 630) (.x 627), .adc 64 32 (.x 636) (.x 628) (.x 625),
  .adc 64 32 (.x 638) (.x 626) (.x 623), .adc 64 32 (.x 640) (.x 624) (.x 621), .adc 64 32 (.x 642) (.x 622) (.x 619),
  .adc 64 32 (.x 644) (.x 620) (.x 617), .adc 64 32 (.c 0) (.x 599) (.x 631), .adc 64 32 (.x 648) (.x 601) (.x 633),
  .adc 64 32 (.x 650) (.x 603) (.x 635), .adc 64 32 (.x 652) (.x 605) (.x 637), .adc 64 32 (.x 654) (.x 607) (.x 639),
  .adc 64 32 (.x 656) (.x 609) (.x 641), .adc 64 32 (.x 658) (.x 611) (.x 643), .adc 64 32 (.x 660) (.x 613) (.x 645),
  .adc 64 32 (.x 662) (.add 32 (.add 32 (.x 614) (.x 568)) (.add 32 (.x 598) (.x 570))) (.add 32 (.x 646) (.x 618)),
  .mulx 32 (.x 7) (.c 0x807a394e), .mulx 32 (.x 7) (.c 0xde097652), .mulx 32 (.x 7) (.c 0x18630421), .mulx 32 (.x 7) (.c 0x2849c07b),
  .mulx 32 (.x 7) (.c 0x1017bb39), .mulx 32 (.x 7) (.c 0xc2d346c5), .mulx 32 (.x 7) (.c 0x409973b4), .mulx 32 (.x 7) (.c 0xc427fcea),
  .adc 64 32 (.c 0) (.x 680) (.x 677), .adc 64 32 (.x 682) (.x 678) (.x 675), .adc 64 32 (.x 684) (.x 676) (.x 673),
  .adc 64 32 (.x 686) (.x 674) (.x 671), .adc 64 32 (.x 688) (.x 672) (.x 669), .adc 64 32 (.x 690) (.x 670) (.x 667),
  .adc 64 32 (.x 692) (.x 668) (.x 665), .adc 64 32 (.c 0) (.x 649) (.x 679), .adc 64 32 (.x 696) (.x 651) (.x 681),
  .adc 64 32 (.x 698) (.x 653) (.x 683), .adc 64 32 (.x 700) (.x 655) (.x 685), .adc 64 32 (.x 702) (.x 657) (.x 687),
  .adc 64 32 (.x 704) (.x 659) (.x 689), .adc 64 32 (.x 706) (.x 661) (.x 691), .adc 64 32 (.x 708) (.x 663) (.x 693),
  .mulx 32 (.x 695) (.c 0x727c176d), .mulx 32 (.x 711) (.c 0x9b9f605f), .mulx 32 (.x 711) (.c 0x5a858107),
  .mulx 32 (.x 711) (.c 0xab1ec85e), .mulx 32 (.x 711) (.c 0x6b41c8aa), .mulx 32 (.x 711) (.c 0xcf846e86),
  .mulx 32 (.x 711) (.c 0x789051d3), .mulx 32 (.x 711) (.c 0x7998f7b9), .mulx 32 (.x 711) (.c 0x22d759b),
  .adc 64 32 (.c 0) (.x 728) (.x 725), .adc 64 32 (.x 730) (.x 726) (.x 723), .adc 64 32 (.x 732) (.x 724) (.x 721),
  .adc 64 32 (.x 734) (.x 722) (.x 719), .adc 64 32 (.x 736) (.x 720) (.x 717), .adc 64 32 (.x 738) (.x 718) (.x 715),
  .adc 64 32 (.x 740) (.x 716) (.x 713), .adc 64 32 (.c 0) (.x 695) (.x 727), .adc 64 32 (.x 744) (.x 697) (.x 729),
  .adc 64 32 (.x 746) (.x 699) (.x 731), .adc 64 32 (.x 748) (.x 701) (.x 733), .adc 64 32 (.x 750) (.x 703) (.x 735),
  .adc 64 32 (.x 752) (.x 705) (.x 737), .adc 64 32 (.x 754) (.x 707) (.x 739), .adc 64 32 (.x 756) (.x 709) (.x 741),
  .adc 64 32 (.x 758) (.add 32 (.add 32 (.x 710) (.x 664)) (.add 32 (.x 694) (.x 666))) (.add 32 (.x 742) (.x 714)),
  .sbb 64 32 (.c 0) (.x 745) (.c 0x22d759b), .sbb 64 32 (.x 762) (.x 747) (.c 0x7998f7b9), .sbb 64 32 (.x 764) (.x 749) (.c 0x789051d3),
  .sbb 64 32 (.x 766) (.x 751) (.c 0xcf846e86), .sbb 64 32 (.x 768) (.x 753) (.c 0x6b41c8aa), .sbb 64 32 (.x 770) (.x 755) (.c 0xab1ec85e),
  .sbb 64 32 (.x 772) (.x 757) (.c 0x5a858107), .sbb 64 32 (.x 774) (.x 759) (.c 0x9b9f605f), .sbb 64 32 (.x 776) (.x 760) (.c 0),
  .cmov 32 (.x 778) (.x 761) (.x 745), .cmov 32 (.x 778) (.x 763) (.x 747), .cmov 32 (.x 778) (.x 765) (.x 749),
  .cmov 32 (.x 778) (.x 767) (.x 751), .cmov 32 (.x 778) (.x 769) (.x 753), .cmov 32 (.x 778) (.x 771) (.x 755),
  .cmov 32 (.x 778) (.x 773) (.x 757), .cmov 32 (.x 778) (.x 775) (.x 759)], [779, 780, 781, 782, 783, 784, 785, 786]⟩

/-- `fiat_id_GostR3410_2001_CryptoPro_C_ParamSet_from_bytes`, lines 11835-11957. -/
def from_bytes : CProg := ⟨[
  .set (.shl 32 (.a 31) 24), .set (.shl 32 (.a 30) 16), .set (.shl 32 (.a 29) 8), .set (.a 28), .set (.shl 32 (.a 27) 24),
  .set (.shl 32 (.a 26) 16), .set (.shl 32 (.a 25) 8), .set (.a 24), .set (.shl 32 (.a 23) 24), .set (.shl 32 (.a 22) 16),
  .set (.shl 32 (.a 21) 8), .set (.a 20), .set (.shl 32 (.a 19) 24), .set (.shl 32 (.a 18) 16), .set (.shl 32 (.a 17) 8), .set (.a 16),
  .set (.shl 32 (.a 15) 24), .set (.shl 32 (.a 14) 16), .set (.shl 32 (.a 13) 8), .set (.a 12), .set (.shl 32 (.a 11) 24),
  .set (.shl 32 (.a 10) 16), .set (.shl 32 (.a 9) 8), .set (.a 8), .set (.shl 32 (.a 7) 24), .set (.shl 32 (.a 6) 16),
  .set (.shl 32 (.a 5) 8), .set (.a 4), .set (.shl 32 (.a 3) 24), .set (.shl 32 (.a 2) 16), .set (.shl 32 (.a 1) 8), .set (.a 0),
  .set (.add 32 (.x 31) (.x 32)), .set (.add 32 (.x 30) (.x 33)), .set (.add 32 (.x 29) (.x 34)), .set (.add 32 (.x 27) (.x 28)),
  .set (.add 32 (.x 26) (.x 36)), .set (.add 32 (.x 25) (.x 37)), .set (.add 32 (.x 23) (.x 24)), .set (.add 32 (.x 22) (.x 39)),
  .set (.add 32 (.x 21) (.x 40)), .set (.add 32 (.x 19) (.x 20)), .set (.add 32 (.x 18) (.x 42)), .set (.add 32 (.x 17) (.x 43)),
  .set (.add 32 (.x 15) (.x 16)), .set (.add 32 (.x 14) (.x 45)), .set (.add 32 (.x 13) (.x 46)), .set (.add 32 (.x 11) (.x 12)),
  .set (.add 32 (.x 10) (.x 48)), .set (.add 32 (.x 9) (.x 49)), .set (.add 32 (.x 7) (.x 8)), .set (.add 32 (.x 6) (.x 51)),
  .set (.add 32 (.x 5) (.x 52)), .set (.add 32 (.x 3) (.x 4)), .set (.add 32 (.x 2) (.x 54)), .set (.add 32 (.x 1) (.x 55))], [35, 38, 41, 44, 47, 50, 53, 56]⟩

/-- `fiat_id_GostR3410_2001_CryptoPro_C_ParamSet_to_bytes`, lines 11674-11820. -/
def to_bytes : CProg := ⟨[
  .set (.a 7), .set (.a 6), .set (.a 5), .set (.a 4), .set (.a 3), .set (.a 2), .set (.a 1), .set (.a 0),
  .set (.cast 8 (.and (.x 8) (.c 0xff))), .set (.shr (.x 8) 8), .set (.cast 8 (.and (.x 10) (.c 0xff))), .set (.shr (.x 10) 8),
  .set (.cast 8 (.and (.x 12) (.c 0xff))), .set (.cast 8 (.shr (.x 12) 8)), .set (.cast 8 (.and (.x 7) (.c 0xff))), .set (.shr (.x 7) 8),
  .set (.cast 8 (.and (.x 16) (.c 0xff))), .set (.shr (.x 16) 8), .set (.cast 8 (.and (.x 18) (.c 0xff))), .set (.cast 8 (.shr (.x 18) 8)),
  .set (.cast 8 (.and (.x 6) (.c 0xff))), .set (.shr (.x 6) 8), .set (.cast 8 (.and (.x 22) (.c 0xff))), .set (.shr (.x 22) 8),
  .set (.cast 8 (.and (.x 24) (.c 0xff))), .set (.cast 8 (.shr (.x 24) 8)), .set (.cast 8 (.and (.x 5) (.c 0xff))), .set (.shr (.x 5) 8),
  .set (.cast 8 (.and (.x 28) (.c 0xff))), .set (.shr (.x 28) 8), .set (.cast 8 (.and (.x 30) (.c 0xff))), .set (.cast 8 (.shr (.x 30) 8)),
  .set (.cast 8 (.and (.x 4) (.c 0xff))), .set (.shr (.x 4) 8), .set (.cast 8 (.and (.x 34) (.c 0xff))), .set (.shr (.x 34) 8),
  .set (.cast 8 (.and (.x 36) (.c 0xff))), .set (.cast 8 (.shr (.x 36) 8)), .set (.cast 8 (.and (.x 3) (.c 0xff))), .set (.shr (.x 3) 8),
  .set (.cast 8 (.and (.x 40) (.c 0xff))), .set (.shr (.x 40) 8), .set (.cast 8 (.and (.x 42) (.c 0xff))), .set (.cast 8 (.shr (.x 42) 8)),
  .set (.cast 8 (.and (.x 2) (.c 0xff))), .set (.shr (.x 2) 8), .set (.cast 8 (.and (.x 46) (.c 0xff))), .set (.shr (.x 46) 8),
  .set (.cast 8 (.and (.x 48) (.c 0xff))), .set (.cast 8 (.shr (.x 48) 8)), .set (.cast 8 (.and (.x 1) (.c 0xff))), .set (.shr (.x 1) 8),
  .set (.cast 8 (.and (.x 52) (.c 0xff))), .set (.shr (.x 52) 8), .set (.cast 8 (.and (.x 54) (.c 0xff))), .set (.cast 8 (.shr (.x 54) 8))], [9, 11, 13, 14, 15, 17, 19, 20, 21, 23, 25, 26, 27, 29, 31, 32, 33, 35, 37, 38, 39, 41, 43, 44, 45, 47, 49, 50, 51, 53, 55, 56]⟩

/-- `fiat_id_GostR3410_2001_CryptoPro_C_ParamSet_inv`, lines 11967-12120; the variables are 0 = t1, 0 = output, 1 = acc, 2 = t3, 3 = t5, 4 = t7, 5 = t9, 6 = t11, 7 = t13, 8 = t15, 9 = t17, 10 = t19, 11 = t21, 12 = t23, 13 = t25, 14 = t27, 15 = t29, 16 = t31. -/
def inv : List InvStep := [.sq 1 0 1, .mul 2 0 1, .mul 3 2 1, .mul 4 3 1, .mul 5 4 1, .mul 6 5 1, .mul 7 6 1, .mul 8 7 1, .mul 9 8 1, .mul 10 9 1,
  .mul 11 10 1, .mul 12 11 1, .mul 13 12 1, .mul 14 13 1, .mul 15 14 1, .mul 16 15 1, .sq 1 5 1, .sq 1 1 4, .mul 1 1 12, .sq 1 1 5,
  .mul 1 1 4, .sq 1 1 5, .mul 1 1 14, .sq 1 1 7, .mul 1 1 0, .sq 1 1 5, .mul 1 1 8, .sq 1 1 5, .mul 1 1 11, .sq 1 1 5,
  .mul 1 1 11, .sq 1 1 8, .mul 1 1 6, .sq 1 1 7, .mul 1 1 0, .sq 1 1 6, .mul 1 1 0, .sq 1 1 5, .mul 1 1 15, .sq 1 1 5,
  .mul 1 1 6, .sq 1 1 7, .mul 1 1 8, .sq 1 1 6, .mul 1 1 13, .sq 1 1 5, .mul 1 1 0, .sq 1 1 5, .mul 1 1 8, .sq 1 1 6,
  .mul 1 1 7, .sq 1 1 5, .mul 1 1 7, .sq 1 1 6, .mul 1 1 0, .sq 1 1 5, .mul 1 1 13, .sq 1 1 8, .mul 1 1 11, .sq 1 1 5,
  .mul 1 1 6, .sq 1 1 7, .mul 1 1 16, .sq 1 1 5, .mul 1 1 0, .sq 1 1 5, .mul 1 1 2, .sq 1 1 6, .mul 1 1 15, .sq 1 1 6,
  .mul 1 1 2, .sq 1 1 6, .mul 1 1 8, .sq 1 1 7, .mul 1 1 5, .sq 1 1 8, .mul 1 1 3, .sq 1 1 6, .mul 1 1 4, .sq 1 1 6,
  .mul 1 1 10, .sq 1 1 5, .mul 1 1 8, .sq 1 1 7, .mul 1 1 13, .sq 1 1 5, .mul 1 1 9, .sq 1 1 5, .mul 1 1 15, .sq 1 1 5,
  .mul 1 1 15, .sq 1 1 5, .mul 1 1 13, .sq 1 1 7, .mul 1 1 0, .sq 1 1 7, .mul 1 1 6, .sq 1 1 6, .mul 1 1 12, .sq 1 1 5,
  .mul 1 1 6, .sq 1 1 7, .mul 0 1 13]

/-- The constants, lines: `const_one` 12124-12127, `const_b` 12129-12132; the file has no others. -/
def consts : FiatConsts where
  one := [0xfdd28a65, 0x86670846, 0x876fae2c, 0x307b9179, 0x94be3755, 0x54e137a1, 0xa57a7ef8, 0x64609fa0]
  a := [0, 0, 0, 0, 0, 0, 0, 0]
  b := [0x3bda2acf, 0x4be8a4e9, 0x90d382dd, 0x79cc0e3e, 0x1d9cc79b, 0x3ba4c8b0, 0x966609e9, 0x5cc73b5a]
  b3 := [0, 0, 0, 0, 0, 0, 0, 0]
  d := [0, 0, 0, 0, 0, 0, 0, 0]
  S := [0, 0, 0, 0, 0, 0, 0, 0]
  T := [0, 0, 0, 0, 0, 0, 0, 0]

/-- The functions of the file. -/
def file : FiatMont where
  mul := mul
  square := square
  add := add
  sub := sub
  opp := opp
  from_montgomery := from_montgomery
  to_montgomery := to_montgomery
  from_bytes := from_bytes
  to_bytes := to_bytes
  inv := inv
  limbs := 8
  consts := consts

/-- `lut_cmb`, lines 12135-14781. -/
def lut_data : List (List (AffW (List Nat))) := [
  [⟨[0, 0, 0, 0, 0, 0, 0, 0], [0x254f12, 0xd082e007, 0xeb1f1421, 0xc5ba8184, 0xf010780d, 0x4ec9e7d0, 0x2794c8d5, 0x7846b5b7]⟩,
   ⟨[0x7225a595, 0x870fb041, 0x5fd57f04, 0x6cafae70, 0x2e7db9ba, 0xfec1c2ac, 0x127a5862, 0x9230823e], [0xe4464836, 0xf6cfdb6d, 0x9a945ac0, 0x3d79631b, 0x3d0c880d, 0xa1fcf2df, 0xee6a611, 0x17c83e50]⟩,
   ⟨[0xe42734fd, 0x3c79c11a, 0xac4040c3, 0x1614b2be, 0x2c3a23a5, 0xdd143725, 0x8af4f7cd, 0x1a02da83], [0xe7d6991a, 0x23d588d6, 0xd2b3e364, 0x5f332676, 0x9134ba88, 0x35382680, 0xd27090e5, 0x8eca826]⟩,
   ⟨[0x26761106, 0x231f8dc8, 0x3d78b14b, 0x7363050e, 0xc05c4381, 0xc3b9a1b8, 0xb8acd9ac, 0x29727635], [0x2ed54e6c, 0xdd416ae9, 0xb48a87c, 0x54608435, 0x97093d22, 0x2c8deea4, 0xd716baf, 0x87d2924c]⟩,
   ⟨[0x619206d6, 0x43281d30, 0x68744e44, 0x4a8ffc87, 0x708208d5, 0xb1011a3d, 0xa035b0b9, 0x2fe86e7b], [0xa3762860, 0x82f43088, 0xb33595d4, 0x67b5a303, 0xb477becd, 0x262f16eb, 0x23e2816a, 0x1d38d4a7]⟩,
   ⟨[0xad83c032, 0x91bba3c0, 0x234f2ff3, 0x7dbc2eb6, 0x6d18a737, 0xe2c00c15, 0xccf6dc2d, 0x71d1ae8b], [0x2db77239, 0x6183816a, 0xe228c41, 0xc545a512, 0xf49a679, 0x3b96d6bc, 0xe49e39c2, 0x9831d683]⟩,
   ⟨[0x20da13d9, 0xeeaa17a9, 0x8abecade, 0xee3130fb, 0xa6e3d089, 0xbfb2ce6a, 0xe627a07c, 0x22bcdcee], [0x955a1d9e, 0x86d7a50c, 0xe4e00b9e, 0xcd60a425, 0x615b9e91, 0x5407a6f8, 0x4f1ca93d, 0x7f17b171]⟩,
   ⟨[0xdb59f2c, 0xbc351de0, 0x9cdaf8af, 0x1470e6a1, 0x60d3b27a, 0x461ed289, 0x49c7f789, 0x122c8f4b], [0x69fc8ce, 0xab56e614, 0xc34e487c, 0x9836b010, 0x3fe009eb, 0x9ee06703, 0xaa019563, 0x88c8dc64]⟩,
   ⟨[0x63ddbb1f, 0xd0b4a996, 0x1d154696, 0x483286e5, 0x9f0d6f4e, 0xf0586db8, 0x980446c8, 0x38167987], [0xe4166b55, 0x86a2abac, 0xa8366c64, 0x4e7b4f96, 0xed997d8e, 0x20cf2108, 0x1d01c009, 0x20ea9844]⟩,
   ⟨[0xb89ce05a, 0x28b520e, 0x4faad420, 0xef41147d, 0x121a2a0a, 0xb280ccd3, 0x86e8f591, 0x4c677c83], [0xa390aa99, 0xb42f67b2, 0x19f8a01a, 0xc4ef553b, 0x6979027f, 0x86761139, 0x82c202be, 0x6f177663]⟩,
   ⟨[0x27c5c7cc, 0xbef6b996, 0x10799db8, 0xb2d34f8b, 0x48ad9b1e, 0x132e1a3d, 0xe68b9907, 0x2971bfed], [0xc6b743b5, 0x312f6d31, 0xa718e0a8, 0xcf123317, 0xfd58637c, 0xcf1e5266, 0xe046167c, 0x56ba8362]⟩,
   ⟨[0xe910d7f, 0xd680969d, 0x8a4689f9, 0x634fb3c2, 0x9fdd299, 0xa79a56df, 0x89411c3d, 0x9065269e], [0x82c6076c, 0x5d22254e, 0x81fea171, 0xde7d78f0, 0x10bcda87, 0xe1366964, 0x97638b85, 0x98b58f5a]⟩,
   ⟨[0xfb5edf3f, 0xa532ded4, 0x833a7e2f, 0x604e5631, 0x3a09c74e, 0x7c4051d3, 0xedfbeb4b, 0x51d1108a], [0x4df1ab4d, 0x9ae61f9e, 0x163db1a5, 0xfd4966f3, 0x7075ad6d, 0xf6c44e55, 0x4af24611, 0x670d0d6f]⟩,
   ⟨[0xd369d301, 0xd99925ff, 0x7665bcf4, 0xc17e9767, 0xcb5a2128, 0xb5a908f1, 0x9c726c9f, 0x1981791d], [0xe0861f4e, 0xc4249418, 0xee045d5e, 0x2a63399f, 0xa1b974ff, 0x246958fd, 0xfc6f7a0, 0x668016a2]⟩,
   ⟨[0xede07c08, 0xeb7018ad, 0x2e33d1d9, 0xdf3c1259, 0xdc24e3de, 0xee0913da, 0x35eb6b0d, 0x1c632d5b], [0x2c56e1b2, 0xc69396dd, 0xa837ce8f, 0x1f0b034, 0xb6882e32, 0x7842b98d, 0x9e61fca6, 0x8fac9230]⟩,
   ⟨[0x8a782cfe, 0x1dbb7d99, 0xc9322be7, 0xeb945b49, 0xe208123b, 0xdccb4e6e, 0xfc024524, 0x1c7c265c], [0x6102bc63, 0xad000d8a, 0x82575943, 0x7d7f3c7b, 0xd547a95, 0x8d2f0881, 0xd94ffa6d, 0x7012377a]⟩],
  [⟨[0x1eb6cbf7, 0xe3f78de5, 0x72fa65db, 0xf4e08a61, 0x502a247e, 0x670b0e06, 0x9877e492, 0x7a45d73e], [0x3dd0cdbc, 0x5fd754ad, 0x125ab1f, 0xa5c2b15e, 0xe614b7a9, 0xc503836f, 0x2c50dcfe, 0x5548c424]⟩,
   ⟨[0xb9b38743, 0xcee7be65, 0x94be028e, 0xd5e41715, 0xb5c45f7d, 0x8ec3ca3, 0xfb51261a, 0x1acfac17], [0xa9c04381, 0x45098d93, 0xa5b45dc8, 0x717fc0dc, 0xeabee4e5, 0xf352a9c2, 0xf311b457, 0x1964af20]⟩,
   ⟨[0x802a755, 0x8c229808, 0x6140cda7, 0x46f0a7ca, 0xbc62603b, 0xf0eeb7ae, 0x4bf4b451, 0x8432e152], [0x63967f94, 0x3c319825, 0xa042ae13, 0xf04eacb6, 0x650a6adb, 0xd7cb2dbc, 0x78c9e166, 0x38a36ee3]⟩,
   ⟨[0xd3ee8657, 0x3527a5c5, 0x101645f9, 0xbaa0de97, 0xce9d6a48, 0xc59c9803, 0xf8f39fdf, 0x43d12449], [0x8df7a72b, 0x65b3ab98, 0xafda9048, 0xd225af8e, 0x338a3694, 0x88c368b8, 0xfbc813f1, 0x4a5a3c24]⟩,
   ⟨[0x9e2118b5, 0xcbcb725a, 0xcaa54794, 0x113f36c5, 0x4a0a2267, 0x5900990e, 0xa9c1f11, 0x4e329eb1], [0xcd8918a7, 0xf47f4077, 0x3877b404, 0x18a3c071, 0xefeb2b6b, 0xcdef4fe3, 0xde4d0540, 0x360982db]⟩,
   ⟨[0xd5f8daca, 0x42ab64f2, 0xee88523d, 0x604a9676, 0xaefd1283, 0xd430ccab, 0x54465f7c, 0x3da9d0e5], [0x41a4216b, 0x5ec145df, 0xf7e7fbd9, 0x7c8f2c51, 0xbd483d26, 0xa2e58a23, 0xe4a908c8, 0x4739f7f9]⟩,
   ⟨[0x79370382, 0x37ddf872, 0x12c8e90e, 0x9d26a55f, 0xe8eb0ca4, 0xfc1fa6cd, 0xc29dc4f9, 0x826a29e5], [0xaa29f814, 0x15ecb621, 0x9df1dff7, 0x4c8a8128, 0x66b549bb, 0xbb223019, 0xb81a2863, 0x6cb21acb]⟩,
   ⟨[0x11da6928, 0xdd31acc2, 0xa903d58f, 0xf98867b0, 0xd3679348, 0xad283697, 0x301c3571, 0x67bfeff9], [0x780bbbce, 0xb745cae6, 0x62f2ec5d, 0x1a9c6618, 0xa1475beb, 0xf9895684, 0x4731a11d, 0x93e5ace6]⟩,
   ⟨[0x7539483e, 0xf6e9460, 0x9ef4ef16, 0x5728e6dd, 0x62e946e, 0xe1da86e1, 0xf2e07759, 0x272ebc47], [0x909a578f, 0xe5e688e3, 0x7cfd1b7d, 0x9f25d6d1, 0xade1e2a4, 0xc582260f, 0xa050071e, 0x2f50f74e]⟩,
   ⟨[0x2df4d40d, 0xe0a8fe3f, 0x7791f88, 0xb126e4ef, 0x2a88d242, 0x69759db4, 0xc9c1981c, 0x52592a3b], [0x72f649a1, 0xd0f41728, 0x750ebab, 0x9ff19b2b, 0xe0d7d222, 0xefc047f9, 0x2e8140af, 0x81491ca1]⟩,
   ⟨[0x675f821b, 0x2da40ff1, 0x9e2e0502, 0x2c91a287, 0x77d81fe, 0x993ecff4, 0x71cc3dae, 0x3aba2f2c], [0x168413db, 0xed007670, 0xafbd4e82, 0xc07d61b5, 0x6bbada24, 0xf078262e, 0x9e6413cc, 0xe0edc62]⟩,
   ⟨[0xb7d099f9, 0x6cd0451d, 0xf8b12c83, 0x8fb218e6, 0xe55ee1e4, 0x4d8c3b26, 0x4a6fcd90, 0x94964906], [0x4beaca48, 0x9abb9685, 0x868efec7, 0x6a749487, 0xc8d2932c, 0x46bb9b42, 0xde007bac, 0x82384321]⟩,
   ⟨[0xa942db71, 0xdbecb743, 0x21a6bc46, 0x21b52115, 0x24c17d78, 0xe49b6894, 0x89a08e17, 0x737fd3f1], [0xc36e4e57, 0xf833e404, 0x1e17ce6, 0x512c114a, 0x50d75050, 0x65a23d73, 0xf2f2d438, 0x838ca746]⟩,
   ⟨[0xa20632b7, 0x28f9220c, 0x642358d6, 0x72d8c347, 0xe89caa6f, 0xab15fe1b, 0x6e16374a, 0x2a09b143], [0xb983cfe8, 0x4ced0986, 0x97b84e88, 0xd9b067b6, 0xc2350f8f, 0x926fc5f5, 0x84e2078f, 0x31d77358]⟩,
   ⟨[0x7ff17ba1, 0xa7815ce7, 0xa26bba1b, 0xbe80bb6c, 0xf86df104, 0x66dae535, 0xab1b9c09, 0x72739199], [0x54056e67, 0x8e93f3c8, 0xebf23595, 0xdc5e3855, 0x78123000, 0x70d1033c, 0xf22dd2bd, 0x50874350]⟩,
   ⟨[0xc2700468, 0x533f213b, 0x11bea732, 0x31e6aa9c, 0x4491dc82, 0xcb5e184e, 0x5bd63975, 0x8a68049a], [0xf86a41d1, 0x1724ac47, 0xeca0da11, 0xdf9a0ca3, 0x71f0ea19, 0xe5e1489c, 0xc9dc7bf2, 0xe20661a]⟩],
  [⟨[0xf86d9da8, 0x5eb4e319, 0xe0a46703, 0x3cbf130e, 0xa4ab17, 0x166d52da, 0xb7030861, 0x27a80547], [0x399c32ba, 0xa7601086, 0xc2f0a5e5, 0x571e4e4b, 0x39bed44d, 0x72d12f6b, 0x1af8f25f, 0x8fdcce3d]⟩,
   ⟨[0x7dfeb40d, 0x281f7af9, 0xd7f767d5, 0xcce33b9, 0x8818c1e6, 0x3e8bf3f4, 0x4ba4647a, 0x6d909d0d], [0xfac574d1, 0x91d77ba0, 0x68ca7fec, 0xd2592661, 0x281f269c, 0xc4c7d6b5, 0xda42cddd, 0x7a41cd78]⟩,
   ⟨[0xa3b8f255, 0xbc8e0d27, 0x1c3e5190, 0xf5e2a8b1, 0xd609f668, 0x8c38862b, 0x631d50f, 0x4e31c18e], [0xf13e0ccd, 0x9013eddb, 0x41efdaf7, 0x83b04e68, 0xdc82597f, 0x15ec4bb8, 0x56117705, 0x50595150]⟩,
   ⟨[0x1e0e0161, 0xd25f244d, 0x1a437fba, 0x6c975d7b, 0x95f2ad8c, 0x305db2df, 0x3b9cc742, 0x17d6e005], [0xe60bc3c3, 0x6a849f76, 0xbf8c3790, 0x35523e08, 0x239140e2, 0xf18b5335, 0x7ca5ff40, 0x5e857055]⟩,
   ⟨[0xa4250e95, 0xb48f07a4, 0xc7f17667, 0x68735ae, 0x94771b24, 0x30f8d313, 0xa495a064, 0x598ea397], [0x68b76855, 0xbf192529, 0xc7c0d2d6, 0x897e3cc6, 0x64ec9649, 0xa2a4948f, 0xae7c8598, 0x1027891a]⟩,
   ⟨[0x4585685, 0x442e6cb, 0x82a2d258, 0x9ba61da, 0xae5466d, 0x7c5400b1, 0xc2133893, 0xa0b71b0], [0xd5ef6e93, 0x4e3d98a, 0xf332bdf2, 0x177ea5f8, 0xc3fae583, 0xe7cf3f71, 0x8ae0cfd7, 0x40c45133]⟩,
   ⟨[0x9b82e738, 0x6be94fc3, 0x8bc262e2, 0x212fb804, 0xb22e21ff, 0xe17f6a7a, 0x15e960bb, 0x22b7bdab], [0x771350c2, 0xe154c945, 0x882db07b, 0x6505b8eb, 0xc7e3abd3, 0x149a0a16, 0x81c30aae, 0x78f78abf]⟩,
   ⟨[0xc954bc0a, 0x6ed81415, 0x70e55349, 0x316e8012, 0x50399c09, 0xec02323b, 0x8559c3a9, 0x963ba97b], [0x37ec345, 0x39fce50e, 0xd5bf03fb, 0x422a082d, 0x18dcc77e, 0x59ed39e4, 0xa40aa978, 0x4cfc3f11]⟩,
   ⟨[0x55d7c9b6, 0x85a56922, 0xb451111b, 0x5bc590e2, 0x8782c71b, 0x3bcb2315, 0x632246a9, 0x1f3456c4], [0x9cfbbe19, 0xea577ad9, 0x35cce939, 0x51bee40, 0x1a0c589c, 0xdc300899, 0xd2095619, 0x14877ece]⟩,
   ⟨[0x95024c5e, 0xb64d0ec6, 0xb94cdf74, 0xb0597195, 0x16844010, 0x3b97b513, 0xccbabc63, 0x48799881], [0xd9819075, 0xe3119ae, 0xeb0299fd, 0xa5dca9c1, 0x4a404d13, 0x8063d788, 0x8044ebe2, 0x974d2a1a]⟩,
   ⟨[0xb8e14640, 0xb6589045, 0x5507b9be, 0xfad60a43, 0x56ff32bc, 0x9d540c1c, 0x74265a69, 0x47ecc24f], [0xdb3e64c9, 0xc829f18, 0x72e87b2b, 0xf7c0c6d7, 0x16b616ce, 0xcb3fc512, 0xb94f69b1, 0x549b9227]⟩,
   ⟨[0xdb235273, 0xb151dee9, 0x6d65606c, 0x2fd9496f, 0xd62b5b0d, 0x6a5e172d, 0xea0ae249, 0x181e605d], [0x8911490a, 0x66d7eb09, 0x2e70def2, 0x85e174a3, 0x4ef8cfa9, 0x2da13354, 0x3e69bd22, 0x1b87fe62]⟩,
   ⟨[0x2bb09564, 0x2df420ca, 0x7acee4d4, 0x1ac26f76, 0x2bc7ef7a, 0x50c68e6f, 0xb445b2fe, 0x4730d654], [0x8b57d38d, 0x90c040d9, 0x33ca2c77, 0x28793db5, 0xac6a4be8, 0x22d2b573, 0xb72e7e01, 0x68c0dbdd]⟩,
   ⟨[0x9e2d3ff, 0xdf70bcdc, 0x9f20f624, 0xb6e59970, 0x6de3119e, 0x5e04fde7, 0xd5705a5d, 0x1c9b43ff], [0x681270b0, 0x7c23a517, 0x9303bf40, 0xdd7fc833, 0x458ee80a, 0x3028e496, 0x52590eef, 0xc720063]⟩,
   ⟨[0x2850a5ae, 0x27b29710, 0xaa3e0397, 0xd1e6fbba, 0xdf8fcbd6, 0xcfb44044, 0xc52b90fd, 0x7cd86272], [0xeba52025, 0xb0e7fa93, 0x4084ef3, 0x64166303, 0x43840178, 0xd7c7dcbe, 0x22fb81a2, 0x8bc7ff77]⟩,
   ⟨[0xdafce699, 0xabdc5206, 0x83c5f3a3, 0x522a9137, 0xe666e5c, 0xbaa93637, 0xd2d33b62, 0xfd813da], [0x5d417354, 0x83391908, 0xa6b9b447, 0xe5aade1d, 0xd68321b1, 0xbde90a3c, 0x411531b, 0x43ff9514]⟩],
  [⟨[0x39648345, 0xd61dee64, 0x7fcb5b5e, 0xf8b3fa1c, 0x24c29c71, 0xdd531ce1, 0xffb825fe, 0x7a23608b], [0xf0de896d, 0x8d607b82, 0x6eddafe, 0x6e497330, 0xc935e754, 0x8b49eff0, 0xee08bdbf, 0x90d54646]⟩,
   ⟨[0x9044fd39, 0xf44fbb16, 0xdfb38141, 0xa72128c4, 0x1954cc0, 0x8467f688, 0xb560b5c5, 0x741c23ee], [0x9765cf34, 0xa7f42201, 0x8a2ab61a, 0xb26c97bf, 0xcbd45af3, 0xaa948763, 0xe21479f5, 0x74c993c2]⟩,
   ⟨[0xbfa717a5, 0xd968ce1a, 0x48e92615, 0x45c1103d, 0xdd98207d, 0x4ccebe85, 0xe65e5fe6, 0x8a75df6e], [0x418c47c5, 0x9e582c40, 0xa450009b, 0x2e9ee003, 0xdd60d3d2, 0x7c079613, 0x9935d8ca, 0x80a78c4a]⟩,
   ⟨[0xd3c9b903, 0xf6cded58, 0xef455e7a, 0x4f27927d, 0x833bb3c1, 0xf9dbbb9e, 0x6ba3770a, 0x4107cfbf], [0x520fcb57, 0x61871175, 0x47a12c8e, 0xea3a307b, 0xc24e9e75, 0x940ddee8, 0xf33541bb, 0x8ae8f22c]⟩,
   ⟨[0x3973dc0b, 0xe4c89870, 0x55dfaaf0, 0xcc3dd1ac, 0x27372efe, 0xb63d596b, 0x45a33718, 0x1b92a192], [0x607319, 0xeabebee, 0x7c3e35ee, 0x69b7355e, 0x2233c454, 0xf7354e35, 0x1e722c0a, 0x1e2baada]⟩,
   ⟨[0x3b9fe86d, 0xd0e47fe2, 0xdaa1c7bc, 0x878f403f, 0x90f5ded7, 0x5447ad54, 0x1e58b03b, 0x4e8a997b], [0x2e926fa8, 0x9ad0e481, 0x8d0ef3aa, 0x871efb9e, 0x7e714df6, 0xadd7dd14, 0x2308ee02, 0x9a30245a]⟩,
   ⟨[0x904f0d11, 0x44838b15, 0x2a2a70ff, 0x6177587a, 0x2c2f7943, 0x40293850, 0x67581701, 0x8f851191], [0x842e6434, 0x564383d1, 0xaf2c0078, 0x251af59d, 0x3354a264, 0x8a81772d, 0xdfd2d0ea, 0x9aafa350]⟩,
   ⟨[0x35461cad, 0x47397932, 0x62c5bffa, 0xf86bd43, 0x7785490d, 0x5f166bc0, 0x2bd61b3e, 0x7dccc988], [0x9394375b, 0x44c3299a, 0x405a34bd, 0xc5f2803, 0x4237e728, 0x3ad60f1d, 0x72ec2562, 0x6e7e06d0]⟩,
   ⟨[0x3c5840a6, 0x44ad8471, 0x4752bc62, 0x40c3ce2b, 0xec3fd75f, 0x94b14c21, 0x2629c0c0, 0x65e0e6af], [0x55936454, 0xa3fe2f55, 0x780e25e5, 0x252ad743, 0xff4e107a, 0x22f9951b, 0x554cea49, 0x1b8a7dde]⟩,
   ⟨[0x89f1c6fa, 0xbbdcc2c0, 0xc360a51d, 0x548fef29, 0x1290ec92, 0x94dad45, 0xaf55bf30, 0x792f6fb9], [0x707fbf4e, 0x37ef4abe, 0xfc4b6bd0, 0xf43ab0d, 0x2d6ee5d9, 0x850015b7, 0x35c1fd65, 0x9273f35]⟩,
   ⟨[0xa6c3209b, 0xcecf1b90, 0xabd433c0, 0xfb4bc864, 0x3eeef8ba, 0x38246aaa, 0x9ed13f88, 0x4bc7904e], [0x8e783066, 0xa61c369a, 0x4d1c832c, 0x496fb831, 0x3ad64d5, 0x1907687a, 0x83425766, 0x49516ea5]⟩,
   ⟨[0xb1714e53, 0x8108b704, 0x82e39be7, 0xb458cb4b, 0x97049de, 0xfcbd51cc, 0x722e8cba, 0x415f4079], [0x342df9c6, 0xcdb06f5e, 0x1281ac74, 0x64885cd1, 0x5366673d, 0x932a05e4, 0xe83ad23d, 0x7333520b]⟩,
   ⟨[0xc54b523c, 0xdaa0a1ef, 0xb3c261c8, 0xa3e80053, 0x558fcfa5, 0x352cc612, 0x85852b14, 0x1b9b755d], [0xa1b541ff, 0x19ee2cb6, 0xd5786b4f, 0x2b531ce2, 0x8c3e15b, 0xef5ea6df, 0x87111129, 0x82161b04]⟩,
   ⟨[0xfceabaed, 0x5ab533a5, 0x4a4d8e44, 0x4c2147a5, 0xda02d43d, 0xd8eee795, 0xa15c1cd0, 0x8cb648df], [0xa788ddde, 0x4869fb6c, 0x77c03759, 0xf9554d14, 0x96187db9, 0x4d25b41a, 0x3fe0b3f3, 0x662fbab3]⟩,
   ⟨[0xa58a5b2e, 0xd3af4d09, 0x5ce88dbe, 0x3c5dd298, 0x7426c2a4, 0x89dda42e, 0x49095424, 0x2d832b07], [0x62aa84cf, 0x24efcc03, 0xe86923d7, 0x348c19de, 0x35db5cb1, 0x453e9286, 0x8db21cf3, 0x3f48eeb]⟩,
   ⟨[0xf4035856, 0xbcf9600f, 0xaf820e18, 0xe77cec83, 0x7f2fbcc1, 0xc87d43c1, 0x6290b18d, 0x574c4cae], [0xe56e1efe, 0x8bd8ae45, 0x75d6fcc9, 0xb1efd684, 0xa361e753, 0x9829f227, 0x5211b784, 0x9a50b425]⟩],
  [⟨[0x36396f78, 0x26f19590, 0x9ad1982c, 0x350d1a76, 0x947f352e, 0x33bdb4ab, 0xffe1e1e1, 0x6ca38b05], [0x6f2a8ca0, 0x55364c2, 0x2969ca7e, 0xaf15075d, 0xc3b9cb70, 0x2916d58f, 0xd7325693, 0x18d94a8b]⟩,
   ⟨[0xf36eb789, 0x87c41809, 0xa7436f54, 0x8c3517f9, 0x3d785160, 0xe7c02e1d, 0x418c7abf, 0x5bafe72e], [0xcd9b27c2, 0xa00a8e76, 0x7da06823, 0x66791808, 0x20ec00b4, 0x342a03d9, 0x6122589a, 0x44502a7e]⟩,
   ⟨[0x5bdae972, 0x3a492f73, 0x126a07de, 0x5184d076, 0xb56a38f0, 0xae49313c, 0x9ec47e0a, 0x66ccc24e], [0xc03cf3e1, 0xae84941b, 0x5a73440b, 0x771afc57, 0xc433e43c, 0xabf93dc8, 0x243c6828, 0x974ee822]⟩,
   ⟨[0xa7a5f66c, 0x468d7fdb, 0xb18defcc, 0xbbb2c482, 0xfa2e7dea, 0x188b8cac, 0xbe0200b9, 0x7894bc93], [0x6b84750e, 0xa3181338, 0x37356096, 0x8b14bdb2, 0xd62f4813, 0xa9200fe7, 0x6f7627ce, 0x8df664a3]⟩,
   ⟨[0xdd996cf1, 0x39bf14dd, 0xf7f42d26, 0xd00b3bf5, 0x17718a3, 0xf1af5a20, 0xabcae05d, 0x34a1e94b], [0xc635d333, 0xad75d1b5, 0x87210a5a, 0x97e5bd39, 0xa0327bf4, 0x11684ca6, 0x9b8f0a46, 0x25c51117]⟩,
   ⟨[0xa935a9b9, 0x7e5cd79f, 0xa22dcd16, 0x15dc70c2, 0x78a420f4, 0x5cda47e6, 0xea631104, 0x37e0364e], [0x5e47b630, 0xe7c46956, 0xe42c4dcb, 0x7bd4c4a7, 0x1c91117e, 0xa76b87a7, 0xada4b5e1, 0x2aa043dd]⟩,
   ⟨[0x875ded57, 0x6bb06b5a, 0xfead7b14, 0x89452b3b, 0xa6e39e1f, 0xcbd5ca8, 0x3bfa7a3d, 0x2dc5917c], [0xf840b6e8, 0x6395d5b8, 0xed8589ee, 0xaec9342f, 0x77979e67, 0x8332a1b8, 0xc59f97db, 0x29b55822]⟩,
   ⟨[0x7d65a8f4, 0xfd145ff7, 0x119c9afc, 0x8fff7ee0, 0xafcd6214, 0x100d0e9, 0xa3b988b3, 0x98de55e5], [0x151bf2, 0xbaccb2e, 0x66091583, 0x2b422d09, 0x93c66a3b, 0xc4d15e16, 0x727de9e6, 0x1c107559]⟩,
   ⟨[0x3cb76edf, 0xc019c7d7, 0x151f5e14, 0x6456dd91, 0x57cc7078, 0x29e95b66, 0xe9bdbcec, 0x9193f4d9], [0x4806f8cb, 0x375837b0, 0xaa954620, 0x52d5528a, 0x1b9d6d34, 0xe71f9f60, 0xdf95759c, 0x910e4fa1]⟩,
   ⟨[0xfcadb5ea, 0x8d31b2ee, 0xa63c7498, 0x814ff77, 0x5e3d927e, 0x236569c0, 0x95bbb9d9, 0x7f669dad], [0x305b0347, 0x29158c9a, 0x52d468eb, 0x99b9b7e7, 0xb4342443, 0x6c4cabc3, 0xa803ed4, 0x125afbea]⟩,
   ⟨[0x101faa4e, 0x850a150b, 0x11ecdabc, 0xb586bcda, 0x4dad2264, 0x9692ef83, 0xd2b67f5e, 0x951716e], [0x924dd16d, 0xa2295f20, 0xd0ce88cd, 0xd8327275, 0xc683ada3, 0x45f8dd0c, 0x88c26024, 0x4a798b33]⟩,
   ⟨[0xcaf71198, 0x225395cf, 0xca3f67cf, 0xee223712, 0x81280061, 0x972b0199, 0x280ecc12, 0xcb20e7a], [0x70f54717, 0x6f04da8, 0x410b9712, 0x5288425e, 0x74cefb4a, 0x6c29a514, 0x849e2fd6, 0x4218ecca]⟩,
   ⟨[0xb33574b6, 0xd85663a3, 0xfaf7d3a2, 0x7469cfb1, 0x3cfa8876, 0x9c587ec4, 0xdb24ed63, 0x5dae46ae], [0xc413e494, 0x66c8da33, 0x65942568, 0xb8b256b6, 0xa7a4caad, 0xf09178e, 0xafebc90b, 0x577d4adc]⟩,
   ⟨[0x92d6c3b4, 0x49009ba6, 0xb884faac, 0xe9cf4915, 0x6f3dbe23, 0xc12377d3, 0xea6b680c, 0x2f6e0e86], [0xe6c5e24d, 0x5df2cd5a, 0xee608dd3, 0xaae7e145, 0x8a7ed956, 0x5357cff2, 0x3912dba4, 0x8377126c]⟩,
   ⟨[0xf83bc3f6, 0x6e83a6c6, 0xc0cc09c6, 0x3633e1e4, 0xbc4b73a5, 0xc2a268b, 0x125688eb, 0x688369d3], [0x73e75809, 0x64ee03e1, 0x8e110c46, 0x21773ee9, 0xa6a648b1, 0xf0bc6be9, 0x7e0041e7, 0x39912183]⟩,
   ⟨[0x26f5716e, 0xcc09774a, 0xfdfb59e9, 0x1cb17f9, 0xae8938b4, 0xa88d1269, 0xd13047c9, 0x99a40d17], [0x6fc672a3, 0xe469c984, 0x5638b928, 0xda6534b6, 0xcde40c83, 0xc56eab20, 0xbd93af10, 0x2c1582b1]⟩],
  [⟨[0xa3f45c37, 0xe4c19851, 0xc7d78fe9, 0xca0feff2, 0x9a7e444b, 0x27b41d8, 0x15d38cbb, 0x1f1b242f], [0xf1f50ab9, 0x1c6c132c, 0x5dfe7530, 0x2a02a3a4, 0x6e29159f, 0x2b1eb8e2, 0x2eede876, 0x5f3f4ab7]⟩,
   ⟨[0xf2df95c, 0x362ce013, 0x26480bfa, 0x82e4e192, 0x6beff080, 0x9aac9a96, 0x8ee2b59c, 0x5a1636f6], [0xfa049ccb, 0x600e0339, 0xf2f57163, 0x56680f80, 0x7b4240a7, 0x2c395cc1, 0x9c86bb64, 0x32edfe4a]⟩,
   ⟨[0x711aef69, 0x8d9842ab, 0x890831f0, 0x7a1c2429, 0x54cda99a, 0x924478df, 0xe25a02e2, 0x791a1d45], [0x170f4c21, 0x1433f569, 0xca5f8bd8, 0x9f42c8c1, 0x67b3201, 0x377740f7, 0x2ece5d81, 0x75145fff]⟩,
   ⟨[0x39638f43, 0xcbfe782a, 0xe07553d2, 0xb0c0ec09, 0x115c673a, 0x8d1c41f7, 0xeb39e385, 0x8510551a], [0xba275803, 0x92000181, 0x27b9a42a, 0x8af63f4a, 0x52297029, 0xd50ecf0f, 0x66883c56, 0x1dca33a5]⟩,
   ⟨[0xc51df9d9, 0xb2c44933, 0xe66d80ae, 0xca6f9fb0, 0x82839ba4, 0x78cd2eeb, 0xf7afbcf3, 0x8ff8bcc8], [0x4164959b, 0x5ad00c70, 0xe83ed8d5, 0xad901c71, 0x2b52650d, 0x56ffc0a9, 0x780126a8, 0x689b171]⟩,
   ⟨[0x5eac1dd8, 0x2e902a39, 0x7cac283f, 0x7681eaba, 0x78525b7c, 0x3608cd8, 0x5eb95540, 0x9665b80], [0x306ee831, 0xf09f9805, 0xe41d453a, 0xfb00b1c6, 0x7c93e727, 0xd8bb9559, 0x2ce63fd8, 0x3b74fee7]⟩,
   ⟨[0xa22daba, 0x73f48b33, 0xc8fc3e20, 0x797de0fb, 0x9e79222d, 0x69c1bee2, 0x1df4c549, 0x3052f67a], [0xed78b6fb, 0xfe9128a9, 0x29ccf94f, 0xd9460cff, 0xc1fd1daa, 0x53737484, 0x1edaeeb2, 0x83adcd01]⟩,
   ⟨[0x2ba4195a, 0x189ec9aa, 0xc522be92, 0x61345757, 0x39efb05d, 0x35bab72a, 0xae0ac461, 0x82b27322], [0xc07f4382, 0xfebf0f8c, 0xdad2ed8e, 0x1ca2b3d7, 0xa27f89c, 0x4800a037, 0x9815d971, 0x77d1b2fc]⟩,
   ⟨[0xca0fc66a, 0xf9f46089, 0x8c23e4e1, 0x5bc406de, 0x8dbf6dd5, 0x1d7f3ba9, 0x679d5587, 0x685b9111], [0xb85be0d0, 0x93554084, 0x7b9eb16c, 0xb081e9ca, 0x60f0d0b0, 0x58c428dc, 0x30b3c6d9, 0x12442c1a]⟩,
   ⟨[0x567226be, 0x147b843c, 0x429a8ffa, 0x2b2bffab, 0xcd435c2f, 0x7a4678eb, 0x3c0b887a, 0x200e8513], [0x90605cdd, 0x9d457aad, 0x157f29a5, 0x6736a242, 0x549fca4d, 0x779b0d25, 0x17fdb4d9, 0x57477ee9]⟩,
   ⟨[0xecf06cdd, 0xd9b15fd1, 0xc1cc2cfc, 0xecf75fc0, 0xa56b39e5, 0x273867c3, 0x79340b7d, 0x72f3ed45], [0x55b6c9b9, 0xf31c9e4c, 0x448fe57, 0xed96826e, 0x8bb7a02f, 0xe2df54ad, 0xd79d71cc, 0x945e7b6b]⟩,
   ⟨[0x9270e878, 0x32b6ce42, 0xd6eebeb9, 0x980c8f6e, 0x55808237, 0xc5717c85, 0xcca3f298, 0x4469d0a0], [0x1a18c0e8, 0x2b9dd7e9, 0x6a0ec412, 0xe9d12401, 0x31f44b32, 0xf889de98, 0x78854a7f, 0x692ee1e6]⟩,
   ⟨[0xadeeca22, 0xf2360597, 0x99a4c198, 0x94623ebc, 0xe4169d20, 0x5a0d49c4, 0xbf0384f0, 0x7be2c5bb], [0x8c537851, 0x42db0d40, 0x65c50782, 0x198a09a4, 0x45ad7ee0, 0x72f80bb7, 0x11fced06, 0x4f83164b]⟩,
   ⟨[0x95712af0, 0x54e5b07c, 0x1e893387, 0x95e7f5d9, 0xc61d7766, 0x383bc5ae, 0x681c28dd, 0x9f626ed], [0xdf97e3c9, 0xd32b726, 0x7c7c4786, 0x2ac62238, 0xd3f5ad40, 0xecea0c6a, 0xa870a132, 0xd26633e]⟩,
   ⟨[0xc3d42d26, 0x40a05a14, 0xf3bde0e3, 0x6577ca1, 0x418b73fb, 0x3daa258, 0xefdeb86, 0x205e02e6], [0x99f90d56, 0xf5479e4d, 0x368cb6e3, 0x4e699bf3, 0x62e4a879, 0x534f6743, 0xa9d78191, 0x18473603]⟩,
   ⟨[0x5c1ed4f9, 0xa23d79cf, 0xf2248b01, 0xfade1cf5, 0x6f4d2164, 0xa3d52827, 0x10b731e5, 0x1f211c03], [0xd97229e2, 0xb415884, 0x80fcc283, 0xcabb7d89, 0x98ef388a, 0xdb9bc752, 0x93e80262, 0x50af2a4a]⟩],
  [⟨[0xd57dd821, 0xd11e80f1, 0xdda2ab29, 0x11cae463, 0xe628f315, 0x21cafd16, 0x7df70cd4, 0x296a84e9], [0x6e9ef995, 0x9ecf7513, 0x6e28855, 0xae875257, 0x5ded383c, 0x78e1b7e9, 0x5e940f7f, 0x6c5d8ecc]⟩,
   ⟨[0x998ee9a3, 0xcbd3acb9, 0xd0dcf584, 0x990cdff6, 0xc7ce5dda, 0xfb4346c, 0x355e268f, 0x5edeef9b], [0xc215036d, 0xacd8b4a2, 0x91c7486b, 0x70d36995, 0x52c6694b, 0x72d5243d, 0xe5f8b99c, 0x54163b48]⟩,
   ⟨[0x1d76a94a, 0xd2aea2ff, 0x379f780b, 0xc5b4fbf1, 0xb33ac708, 0x700042f7, 0x8183e0ca, 0x7da790bf], [0xeba72fa8, 0x95681fe6, 0xe22e254e, 0x1f0a390e, 0xbf07a8a5, 0x465a58f8, 0xfb1fce40, 0x840ea2e7]⟩,
   ⟨[0x44048484, 0xd955c5b5, 0x6935c5e4, 0x7107d595, 0x8a0fce44, 0xfc657444, 0x2800e517, 0x97df2b4d], [0x2c482414, 0xb1bb328, 0x4e48cdbe, 0x152614cc, 0x42ede4e0, 0x48051fb6, 0x3dbffe52, 0x91125b93]⟩,
   ⟨[0xcf898f54, 0xa2f526c7, 0x83080857, 0x8788ca12, 0x4562f7b0, 0x2f442723, 0xc044560c, 0x837772ab], [0x31bcb2ea, 0x51ad2f71, 0xafc5c03d, 0xf1d33fc, 0x7bd352a4, 0xdbfe541f, 0x64b8343d, 0x8b441399]⟩,
   ⟨[0x44dcd145, 0xfeb96b8c, 0xeff22d0d, 0xeeb3007c, 0x252a8c8f, 0xaf64dfc1, 0xd131e0c5, 0x5d9b0a05], [0xabfed144, 0x28c943ef, 0xb6a2273d, 0xdfbf730c, 0xe2a1bfbd, 0x6cc5be44, 0x9030fcd, 0x55fac033]⟩,
   ⟨[0x728f39ec, 0xfaa58543, 0x40b37b15, 0x9b2f10ba, 0x7254a419, 0x96505c7f, 0x879c7ff9, 0x4f4ace5], [0xbc5fda53, 0xc0b4b576, 0xf7abcd3c, 0x12549929, 0x313fec34, 0xf5631e, 0x798c7cfb, 0x89ea4459]⟩,
   ⟨[0xe2020c1, 0x671137b5, 0xa4dc66c3, 0x77727861, 0x81492a26, 0x8ce05ed1, 0xa0c3f612, 0x42bea541], [0xb0e461eb, 0x6d39e3d1, 0x9fa806f, 0x459a8e13, 0x466cb93b, 0xe2a185c1, 0xe21ecb34, 0x17d131ce]⟩,
   ⟨[0x387a15bf, 0x2141e262, 0x6be61c42, 0x675b5e7c, 0xf1cf93ef, 0xeec1bdd4, 0x23bab1f9, 0x6acf3838], [0xb0b39c86, 0xa2f84e23, 0xe244e0e3, 0xe955dbbc, 0xb7a8102a, 0xe0155980, 0xb23012fa, 0x1e117dc8]⟩,
   ⟨[0x6eb36280, 0xc92a36aa, 0x5e906d78, 0x5aed3a1d, 0xae4e430a, 0x8d336221, 0xd3aa50ad, 0x3f184f1d], [0x916d9741, 0xd14810ec, 0x3322d9b3, 0x2900169f, 0x4728254, 0xaff1a060, 0x26f60b5f, 0x89c4c673]⟩,
   ⟨[0xb7f0d157, 0x5216e0ae, 0xc9f38aad, 0x3b8d2226, 0xbb34aa79, 0x283e3e3f, 0x565cab83, 0x94da80fa], [0xe6ed4a46, 0xddb51943, 0x7cdd5fe6, 0xf3affa9a, 0xb648a84f, 0xab493cc, 0xf15ee45f, 0x128356b6]⟩,
   ⟨[0xbd0f02c4, 0xd2ad34f4, 0x719bcf1e, 0x3dc9b6d1, 0x12eb5ae8, 0x11edb8f1, 0x71180f90, 0x33ac71d8], [0xb59621d7, 0xae988fe, 0x8f348211, 0x32042b52, 0xeb0cebd3, 0x7e6787c4, 0x26b8a526, 0x8c4d2549]⟩,
   ⟨[0x4d40ed72, 0xa3b46154, 0xf6cf3972, 0x3a096546, 0xb3e46d8c, 0x9c7bc931, 0x90486c75, 0x85b77bad], [0x6ebd35e0, 0x95b706e5, 0x101e098e, 0xc1e18243, 0xf01c17e1, 0xf17c23ff, 0x85ec224e, 0x32235272]⟩,
   ⟨[0xfd24fa16, 0xe816235d, 0xb3aebd7, 0x5306cbc3, 0x8be25cb7, 0xdef60a9a, 0x512999c2, 0x4b889a0f], [0x67b29fd9, 0xab86a7f8, 0xb5461bcb, 0xb81c532d, 0xd34d9819, 0x810e9a0c, 0x3092515d, 0x1e353009]⟩,
   ⟨[0x21fb0bd9, 0x46826339, 0x3bae50, 0x9cce9a43, 0x2eb45b4a, 0xcd2216c3, 0xc7e0f2c3, 0x13598548], [0x54611984, 0x8b0bfd72, 0x89c0b05a, 0x705cb525, 0xce880dd8, 0xd9073d87, 0x3dcaeb, 0x1ea534cd]⟩,
   ⟨[0xc58b4413, 0xc7aac256, 0xe8054f96, 0x301109d6, 0x9c7e7860, 0xa1f44d2, 0x96f15424, 0x55d122bb], [0x1c14a8a9, 0x9a63098f, 0x4221cdfb, 0x8e01a9dc, 0x357b360a, 0x11c91fcf, 0x36a3cf4, 0x70c47aea]⟩],
  [⟨[0x36a843d, 0xc0457c4f, 0xf1f593cb, 0x6e3e0801, 0x8c53873b, 0x1aadf2d8, 0xd140c8d, 0x5cec5c7b], [0x328002e4, 0x4341a9ab, 0xc410d034, 0x11f22331, 0x5db6a39d, 0xfcf69ef, 0xb84fda1f, 0x3dd32a53]⟩,
   ⟨[0xaf8c811a, 0x19e52339, 0x92d46c4f, 0xc8b83800, 0xca8463a3, 0x891c4185, 0x98f3ff1b, 0x5b51651f], [0xfb39dca, 0x3d149607, 0xb1051394, 0x39eccde2, 0x1a14522b, 0x3633de27, 0x7c59a9a5, 0x5fe55114]⟩,
   ⟨[0x2f0b507f, 0x68c8e0c6, 0x5b62c5e, 0xdabc8eef, 0xe6165c1e, 0x297c943a, 0x7d7ca6d6, 0x337c6b94], [0xd6066191, 0x66f98fe4, 0x58945da9, 0x745bfeba, 0x3b29a546, 0x60044787, 0xe2d4edf2, 0x2815651e]⟩,
   ⟨[0x63661218, 0x54a3be74, 0x15e79415, 0x89c56364, 0x405e4932, 0xe03c6963, 0x9a619956, 0x86e101ea], [0x400dc92b, 0x47baf2f3, 0x291e4059, 0x5c44512c, 0xec6d7bf9, 0xd7f84b8e, 0x25ab8d79, 0x6cf42540]⟩,
   ⟨[0xb885dafc, 0xd6e1b75d, 0x6128014e, 0x7a33ce4b, 0xea9ff260, 0x80df9948, 0xd2b5872b, 0x99e0a11c], [0xe2435510, 0x960bdc3d, 0x14f7a99c, 0x4b0ecc53, 0x5ac6170b, 0xe815db8b, 0x17d5f2dd, 0x30956156]⟩,
   ⟨[0x57166fce, 0xa035e3ce, 0x40a75b80, 0x71ad4095, 0xdb7d0bfb, 0x639c4ea7, 0xb12dbe6b, 0x7a90be97], [0x75f86a60, 0x91aa30f, 0x509aeefc, 0x67c0f795, 0x331629c5, 0xf028c12a, 0x8a1f7478, 0x90d26b1c]⟩,
   ⟨[0xb6ac2ad5, 0x6f01554e, 0xbc9a48d6, 0x9dd0576e, 0x97ae2605, 0xab372013, 0xbb83852b, 0x1525d8b5], [0xe46e4c61, 0xd50680c3, 0xecb8f06f, 0x29fbba5c, 0xb16637a3, 0x60a48ab4, 0xcd1490d3, 0x8bb47967]⟩,
   ⟨[0x4b7c7ea6, 0xa35a0187, 0xb4d6409a, 0xfe01521a, 0x8fde1e30, 0x57cece62, 0xf4f51d55, 0x1a9a9b2d], [0xe221ac58, 0xd33556b, 0x152508ad, 0xa4a1a34, 0x144aa33, 0x1fd61da1, 0xedc7c5f8, 0x4804be6a]⟩,
   ⟨[0x5b363a84, 0x71ec815, 0xfe11ed05, 0x359c2a9f, 0xb8bbf9bd, 0xfdf80c9, 0x103accbe, 0x928e51a4], [0xd5e8a222, 0xd152b6e7, 0xcbe022c9, 0x6368e3a8, 0x3128b659, 0x2e5055de, 0xd21f1062, 0x51e23651]⟩,
   ⟨[0x34834bf7, 0x5ce999d7, 0x3dc831e9, 0xe386394c, 0x7fe48564, 0x6dbd5eca, 0x556841a5, 0x804bc07f], [0x229a9175, 0x2a8b616c, 0xa1b3ef97, 0xaeeb533a, 0x6f145037, 0x9d858f9d, 0x7f6a8ebb, 0x247ffab0]⟩,
   ⟨[0x99eb4f3, 0xe616e779, 0xf1b1926c, 0x4f360d2e, 0x17055397, 0x28ee1f91, 0x844afcf3, 0x9994d7ff], [0x12cbd801, 0x8824a949, 0x6a4484dd, 0xa3afed4d, 0x3b5e36a5, 0xcb16cd67, 0xbc3bbea9, 0x5490c30d]⟩,
   ⟨[0xd7601122, 0xea43ca5a, 0xd248eb72, 0x9cf2a15b, 0xb71d18d0, 0x4ce8ab75, 0x41a19a5, 0x2576c5b1], [0x8cc1496e, 0xde20fd02, 0xbe51831, 0xc9fe5b0c, 0x3a53abbc, 0x9dc17e32, 0xf4c806fa, 0x94e24dd9]⟩,
   ⟨[0xdf1a4b3, 0x2a9cf5f1, 0x15063c08, 0xe0196754, 0xccf88f77, 0xce9cf2c6, 0xefe91c6c, 0x51acc7b5], [0xa799fe2e, 0xc2302ef, 0x69c0d117, 0x5ee756a4, 0xf4eab1a1, 0x7e907ec2, 0xd98022dd, 0x19eef95b]⟩,
   ⟨[0xa8e7ffa5, 0xb170d483, 0x39180fac, 0x2052600a, 0xa68af290, 0x8ead52d4, 0xff9e3641, 0x1b88cfe], [0x65bc2d0c, 0x3d9077f7, 0x3abcdb1c, 0x2af9cf67, 0x7295dada, 0xea104e74, 0xeb1e5d6e, 0x7df23470]⟩,
   ⟨[0x8e53f40b, 0xf54d98d, 0xaf360481, 0xbfc22e9b, 0xe132666b, 0x309973b6, 0x25e783e0, 0x1f40d11f], [0xf00ac3eb, 0x8eebc9d7, 0x2f9adcc7, 0xbd725d82, 0x66efddcc, 0x47767810, 0x4eccaf67, 0x60b0b100]⟩,
   ⟨[0xb98c7e96, 0x498e2074, 0x8bf31a9, 0xbebf5183, 0x3894dbe7, 0xdd4aad, 0x429878f6, 0x66c047a4], [0x6d0f1ab1, 0x16f2cb33, 0x58669acb, 0x5fa2f181, 0x486f1be7, 0xfa4b2f49, 0x5698f41b, 0x1ecaaf6b]⟩],
  [⟨[0x4dcc455e, 0x2999c212, 0xbef617b8, 0x83897e49, 0x5a218e0f, 0x6b49ce26, 0x88ef7ea7, 0x49a5c9eb], [0xf63ec82c, 0xf0eda5ff, 0xead471cd, 0x736d933d, 0xdf8071c4, 0x10e4431d, 0x38e1523c, 0x8c59c107]⟩,
   ⟨[0x5a54a4ab, 0x569fb74e, 0xf3384c14, 0x72788868, 0x107b417f, 0xbc840717, 0x7e13210c, 0x6682c107], [0x77b20150, 0xb3359fc2, 0xa9e03222, 0xeb923e66, 0xa10cf332, 0x490c39fc, 0x49ba035d, 0x69099c2d]⟩,
   ⟨[0x3cb2c6e, 0x64986720, 0x328b22ba, 0x994054a1, 0x6f0542da, 0x4155c6b9, 0xa3b93ffb, 0x216cf760], [0x5c2ad753, 0x74486184, 0xa0cd3660, 0xe517984e, 0x3d7da8a1, 0x6530bc86, 0x2e46ca79, 0x4328cf9]⟩,
   ⟨[0x4798cd35, 0x4100aded, 0x635baecd, 0xc832796d, 0x5b80e18c, 0x7ef1ea95, 0x426b1aa9, 0x6889a91b], [0x927c6f8, 0xc40a0a87, 0x2b86ed45, 0xd60cfd1c, 0xd57350a1, 0x98731dff, 0x1de4341f, 0x1c52eae9]⟩,
   ⟨[0x23a40faa, 0xc287e33b, 0x7a633bdc, 0xb96d9f51, 0xe6d0f326, 0xf6a5b779, 0xf619de4b, 0x10203fe1], [0xc4f18bf8, 0x11fb53e, 0xbca32ca0, 0xaebb82f6, 0xf881818d, 0x6bf8ed5, 0x18247e6a, 0x3a6a3e35]⟩,
   ⟨[0x625dc1, 0x3bf2e96e, 0x5a288f80, 0xd81ad156, 0xb7ce9b13, 0x4c3269e, 0x2f9e2713, 0x3e18eafc], [0x9d0bc74a, 0x20f0e05d, 0xd8140790, 0xacdb4b75, 0xf1b5b265, 0x12918a7e, 0x6896342e, 0x22a70af9]⟩,
   ⟨[0x9c4b6b08, 0x326a28a2, 0xa17d3d57, 0x21302f37, 0xce36f438, 0x181378e7, 0xfed12de1, 0x42b07eba], [0x468ad4c, 0x81ddd20, 0x64df34ae, 0x32822ec3, 0x4b2192d, 0xe9f8d7c2, 0x918666f8, 0x6abc7220]⟩,
   ⟨[0x4af3956, 0x93330701, 0x872bd30d, 0xeeb7aa8e, 0xd0e67494, 0xfc96d106, 0x3a918dfb, 0x516028cf], [0xfb27b6ec, 0xfaf0b6f7, 0x515da78d, 0xfad73ad, 0xd8cf1934, 0x5f136068, 0xb6052802, 0xa526e04]⟩,
   ⟨[0xe4685212, 0x20df0deb, 0xa41b293f, 0x71d4bac1, 0x2fa8bbac, 0xbcc32a2f, 0xf30cc343, 0x32a8723a], [0xef95acfe, 0x71e6daaf, 0x9f445394, 0x27d158f6, 0xe186b246, 0x2140f78d, 0xcb1c83ad, 0x4caf98c3]⟩,
   ⟨[0xb6f63aa9, 0x94e264fc, 0x4d0fe485, 0xf4637b02, 0x69ccb4e, 0xa4bc0a03, 0x9e25e817, 0x99a81e37], [0x8f4d37bb, 0xe3b804a7, 0xe38e654c, 0x57f272a5, 0x5928f65, 0xd1852c, 0x4345dd06, 0x3031b713]⟩,
   ⟨[0x57536140, 0x6e42af11, 0x5a403f, 0xdc5b7cdc, 0x26527417, 0xe6ee185e, 0x7c685bcf, 0x1003d013], [0x192979e6, 0xc2206bf6, 0x6fe38214, 0xd1c370db, 0x92f3c044, 0x78d105b7, 0xbfdf8dfa, 0x2f0df6b8]⟩,
   ⟨[0x44d04c4a, 0xb02fca38, 0xa44566c6, 0x956a2f7c, 0x9f1f09c6, 0x60672df3, 0x2160c362, 0x6459a949], [0x8714451, 0xdae54341, 0xbffd7cf6, 0x48b77a0d, 0x3edbc8d4, 0x615adbfe, 0x35b67d2f, 0x3338e557]⟩,
   ⟨[0xdd24a0f0, 0x601d49d1, 0x48ef27b9, 0x60a48db7, 0x97a8bac6, 0x97f2212c, 0x155ab524, 0x376b0292], [0x62e2a961, 0xa25881ba, 0x2b8c56f7, 0xeb74cc80, 0xda57c41a, 0xbe5c5dd4, 0x2d16afa0, 0x53d0d037]⟩,
   ⟨[0xca291206, 0xe47c9eab, 0x42d5c667, 0x25dadb64, 0xd886993e, 0x8c154cb6, 0x806b932f, 0x11dec39c], [0x13d4b4e5, 0x51a4dcf3, 0x9d1d822a, 0xaa1dad6d, 0xceef2e29, 0x2bb2e14d, 0xb2343be3, 0x429c13c7]⟩,
   ⟨[0x297f709d, 0x4e8e953f, 0x262d862a, 0x23183a3d, 0xea12d93f, 0xe164a10d, 0xfe703920, 0x386c2873], [0xe5c51c7e, 0xd59e1582, 0x20f6a2e, 0xa8c93b5b, 0x160cd058, 0x51518bd0, 0xb1d38ac7, 0x3337801a]⟩,
   ⟨[0x2f5d9e25, 0x6e251533, 0xb0d6b0db, 0x88e76135, 0x9e6762d1, 0x5c197832, 0x84e620ac, 0x12326773], [0xe2694dd, 0x3b88df27, 0x30a23caa, 0x30fed9e3, 0xa23df142, 0xe12dd93e, 0x2ea77c07, 0x6778f51]⟩],
  [⟨[0x49e5f6b4, 0x5d5be00e, 0x721ef9dc, 0x2f47e7c7, 0x7eafc098, 0x338f7b00, 0xaf8c2475, 0xf5f06e3], [0x63122b22, 0x2a4b845c, 0x89a4ce9a, 0xed440060, 0x9a86d9bc, 0xc9eeb640, 0x2f39b439, 0x12c3e0f3]⟩,
   ⟨[0x17766f6c, 0xb444b88b, 0xa41fd692, 0xf9b100e6, 0x5c149b30, 0x81eafcd1, 0x1d521a1e, 0x37dd6f6e], [0x389dcd6e, 0x14dbe8c3, 0xdcbc7fc, 0xcd24d655, 0xe00f9102, 0x5f8d48e, 0x509d18d4, 0x403954e6]⟩,
   ⟨[0xe4fe16ec, 0xa04fdddf, 0x90e15c0c, 0xb9e7fa73, 0xc77fab6b, 0x7d6a7206, 0x3e221f12, 0x3ffdccd1], [0x47b5bb7f, 0x120c05b1, 0x5b7e2b96, 0xfa3614c0, 0x4a6ac6e0, 0xf3a4f07f, 0xc8ad4f23, 0x324bf48]⟩,
   ⟨[0x55df2f18, 0x508a0370, 0xb872f209, 0x1c6c91ea, 0x8e12f437, 0xdc3f6c5a, 0xc91afd75, 0x65f5058f], [0x5a859a1d, 0xc43613d, 0x5bf96a6b, 0x83a2610e, 0x1496aead, 0x1a98aa4c, 0xe6caa901, 0x3ab1ce5e]⟩,
   ⟨[0xffb3e411, 0x9420abfe, 0x31404e74, 0xce609760, 0x2c49837, 0x3d4c23c5, 0xd0868a3c, 0x6b79fb14], [0x6b5861ea, 0xb4eee8db, 0x9d948195, 0x495e2b46, 0x1ce15ec9, 0x2bb0bd94, 0xded25955, 0x6ce79f80]⟩,
   ⟨[0x5820df65, 0xa6b98c1d, 0x909356b5, 0xe8284737, 0x91340e1, 0x38e8609a, 0x10666012, 0x98ec077b], [0xbf075dae, 0xfb243b1e, 0xa270fe31, 0x32312bac, 0xcaa5f8e, 0x21451120, 0x2a515015, 0x8f60118f]⟩,
   ⟨[0xcbdeb88e, 0x4f211c9e, 0xb6d680fd, 0xf6d3cc3a, 0x8bf4b4a7, 0xe193829d, 0x2d620371, 0x3223ef4e], [0xc0e5245a, 0xc3e35420, 0xb4ade2ea, 0xd3f4f894, 0xf2ce985e, 0x464fcb6c, 0x7b987fa7, 0x79cf596d]⟩,
   ⟨[0xc0016ff, 0x730748c, 0xa2949069, 0xd02115c5, 0x40e9c7f9, 0xaa6f794d, 0x79149c37, 0x9514fa7b], [0x5a46bce0, 0x6e2f2778, 0x837acd5, 0xf55d46c6, 0x1e4223e6, 0xf965c468, 0x85d90a07, 0xbff0a91]⟩,
   ⟨[0x1923c8af, 0x9ed90358, 0xa470ae00, 0xc425b633, 0x1c50fdad, 0xf9f4b162, 0xa8ca2bd5, 0x999d072], [0xaf74d4c3, 0xcb122fbd, 0x2c283752, 0x372c13f0, 0x82138b19, 0x9f42a903, 0x3eb8cb95, 0x573a2cee]⟩,
   ⟨[0x3ac2e191, 0x6c3a6be3, 0x1b222db2, 0x4149e0eb, 0xa4aacc55, 0x5ba91005, 0x1bfadbd0, 0x176bd33d], [0xa8da0fea, 0x4aeaf14e, 0xa7ff8e1c, 0xb12401f9, 0xf192414, 0xf1ef39ae, 0x416743c1, 0x95d433d3]⟩,
   ⟨[0x9aa0c238, 0x29ecf54d, 0x8fca6419, 0x3762f1d7, 0x64d3aaa9, 0x761d786a, 0xdaec7bf4, 0x7a8a677d], [0x324676f4, 0xc2829ead, 0x4d0b291e, 0x4e504a47, 0xf8c4f384, 0x360ce7fe, 0x78cda37d, 0x33a577b5]⟩,
   ⟨[0x333103fd, 0x1bbfc128, 0xe45c9dbe, 0x3d36045c, 0x15c9013d, 0xa8d53f5a, 0xa33fdcfd, 0x99d62f8a], [0xa81f581, 0x73e53961, 0xd00bc0d9, 0xd01ad20e, 0x1f6d9b73, 0x59701f4d, 0xe098e536, 0xf4ebfbc]⟩,
   ⟨[0x91e3c062, 0xbdb9368a, 0x9b17aae5, 0xcd66a0b1, 0xb4537e05, 0xb6636dd7, 0x73b119ce, 0x37d94b8e], [0xc7428ff9, 0xa5f8e90f, 0xf8ea9f03, 0xe7e5b2b7, 0x5b3506da, 0xb7f20fb8, 0xe494ffda, 0xf4ab6d5]⟩,
   ⟨[0x85365933, 0x3acee3bd, 0xbf510114, 0x9d5223d3, 0xa08d01b0, 0xe0d7d9a7, 0xb2f1f61f, 0x28fd329a], [0xa5909dd3, 0x3e16a2e2, 0xb4fecb35, 0x284a8708, 0x73d5bfba, 0x190f7b3a, 0x92ee4bbe, 0x7e07982e]⟩,
   ⟨[0x44945687, 0xa30a4c22, 0xd688a301, 0x657c0f2e, 0xbbb3e65a, 0x9b558d4a, 0xa6e57844, 0x8044d57e], [0xe3957e21, 0xf202e50e, 0xce62fcc9, 0x4957e651, 0xc4ece0b8, 0xf7b9eba4, 0x61167229, 0x29532cec]⟩,
   ⟨[0x3eef3d71, 0xe9dc8ea6, 0x3e8ec117, 0xebf76bd4, 0x2ea072b9, 0x48ceb78d, 0x73efc32d, 0x82ecdfc4], [0xe2c89e7d, 0x51b02cb3, 0xf4d9100f, 0xe9d0740c, 0x8a5e3f48, 0xbb556efe, 0x1d01b44e, 0x864e52da]⟩],
  [⟨[0x14ea6dc5, 0x5a75e0bd, 0x532efed7, 0x9f2aa76, 0x83ce5a18, 0xe6dae0a9, 0xceb4e78d, 0xf9bcb7], [0x71f79bf3, 0x128fb51c, 0x80d5dbc3, 0x78c79788, 0x9b816b9e, 0x2752f02c, 0xeb7622e2, 0x88cfba0c]⟩,
   ⟨[0x268432a3, 0x845ab940, 0x2f94f6d3, 0xa8d0231b, 0xfec02130, 0xbdfb3f91, 0x5f62419f, 0x7a61ae4], [0x192ebf1a, 0xd1c951df, 0xfa232e34, 0x22cdcff5, 0x3a7581dd, 0xdfdf121b, 0x710403a5, 0x9865eca2]⟩,
   ⟨[0xf8180bab, 0x609f4527, 0x50a6d914, 0x93ab1072, 0xe2eee3bd, 0x299d5013, 0x42959c14, 0x36efce5b], [0x1045ffcb, 0x49cda60d, 0x45723371, 0xa8b2492e, 0xf243fdbb, 0xcb75789b, 0x871d500d, 0x8e1079d7]⟩,
   ⟨[0xdb14298e, 0x69852694, 0x41a56b6d, 0xbaa92a95, 0x3dbfdba4, 0xc7371848, 0x947747f8, 0x94b3155c], [0x7552426b, 0x97bcdd19, 0x32682121, 0x4fb3e76d, 0x8bc15fca, 0x875aa0f7, 0xf1fd2315, 0x4065bcdf]⟩,
   ⟨[0xb7f1ed04, 0x2d1c0519, 0xea2535e1, 0xed9a1bb7, 0xabae813e, 0xe4728cd6, 0x21a771d0, 0x2cd7d447], [0x59b9e964, 0x88e2a785, 0x6f9b5374, 0x2677fbd7, 0x2645b626, 0x3967d6c5, 0x5a1c315b, 0x8843f7df]⟩,
   ⟨[0xc7055a4e, 0x673cd273, 0xee827873, 0x52ac45c, 0xce1981f3, 0xc26b9214, 0x2b8eef59, 0x3c39c13c], [0xb276d47, 0xdd9e1b9b, 0x7287f9a1, 0x6729a534, 0x61dad53, 0x43e1471c, 0x118b56c8, 0x6082fad9]⟩,
   ⟨[0xf99186d6, 0x9c3872aa, 0x75ac99bf, 0x1d9e8db6, 0xe338dbd3, 0x6fa7a0ff, 0xd1fef2f9, 0x1edf44ec], [0x1f9114bf, 0xbaf9d33a, 0x3007b6a5, 0x89af08e5, 0x8436d917, 0xaa04b169, 0x6afcf5e0, 0x8381e76a]⟩,
   ⟨[0xc1d799ba, 0xc51848a4, 0x7f40b34b, 0x6c3d43a9, 0xa5cb7b95, 0xe8dae074, 0xbb5f8aec, 0x5375b1ee], [0x507099e6, 0x461290ee, 0x3bad89ad, 0xb95934aa, 0x701a4d9c, 0x9a6e5c22, 0x5e1389f6, 0x2ca79144]⟩,
   ⟨[0xe5108fc, 0xbf82f786, 0x644d06de, 0x3620ccc4, 0x8e5c4753, 0xb65de853, 0x9fedfd16, 0x6dab7241], [0x546dcba4, 0x4cecac87, 0x3e2d0684, 0xa7bbe65d, 0xda1e4ffa, 0x92aa490, 0x41ad32af, 0x78f448be]⟩,
   ⟨[0x4a33f071, 0x321580fe, 0x5ee5e685, 0xbea845d1, 0x47ac8acf, 0xc73caece, 0xa9f65f05, 0xe15e55d], [0xa59506e7, 0x5fc47420, 0x1dbd2dd, 0x501417ff, 0xfb1205a6, 0x8ef23280, 0xe0f43ae8, 0x1aa26168]⟩,
   ⟨[0x8149eb2a, 0xd41f73b1, 0xad95d531, 0xc297af04, 0x749e415d, 0x2017176f, 0x8357ce9a, 0x5af89c73], [0x8a0ff9c, 0x301f7c79, 0x98695c57, 0xc2999b5, 0x6e4d8ff5, 0x85679957, 0x6f493b1c, 0x2cc0ff3e]⟩,
   ⟨[0x4af481f5, 0xfe90f904, 0x31bc4919, 0x562c78b, 0x70e4f140, 0xaa44aa56, 0xa175159a, 0x1b61deb4], [0xa7a7e648, 0x85315de1, 0x6c012b33, 0x4bc1f51d, 0x60cdee6, 0x40cb5de3, 0x32a1e138, 0x969f9196]⟩,
   ⟨[0xe05f23b5, 0x3b317508, 0x512d1156, 0x7b1a93ae, 0xcb58ec19, 0x3a283415, 0x8e27cad9, 0x193a53a1], [0x3de1ba8, 0xcf6bbeba, 0x47a02393, 0xfa5544ca, 0x8627f5eb, 0x8b3aac1a, 0x62eaf195, 0x2fad2ec]⟩,
   ⟨[0x259ccf0f, 0x4f8d8ada, 0x562991d7, 0xe4e6786b, 0x597c3fd3, 0xa1c63473, 0xacab6f16, 0x1f5b9017], [0x592d437a, 0x95b201bd, 0xed14f859, 0x54432a75, 0xb551ac1, 0x67ef73fb, 0x7f1ab9ca, 0xa48f043]⟩,
   ⟨[0x4a35445c, 0xecee508e, 0xb3ea6f9b, 0x80be9f07, 0x87e4b78e, 0xd914b256, 0xf89b8e4b, 0x97f79cc9], [0xc359fb12, 0x6a5b4f2b, 0x99cf6ffa, 0x54e6e37a, 0xf7c66ca8, 0x1133c4b2, 0x345866b, 0x6f679b28]⟩,
   ⟨[0x44e77cdf, 0x6f7a1, 0x42033333, 0xd8077f9f, 0x21eaf35f, 0x414ece5, 0x5623803c, 0x1211576b], [0x140309a7, 0xedadd215, 0x5ebae3bb, 0xc349c657, 0x821de06b, 0xbd40427c, 0x3f5d2f97, 0x8949aca3]⟩],
  [⟨[0x22e3d44, 0xac1f87e6, 0xb39f6b10, 0xdfc17bed, 0x7119c4a, 0xeaae4168, 0xdbd47d36, 0x8b3b40bc], [0x861b7b59, 0x6683a561, 0x13a6c76d, 0xf9bffb17, 0xa30a05ac, 0xe4e72ea4, 0xba0d2ad6, 0x77c219e8]⟩,
   ⟨[0x66be6944, 0x5019824e, 0x7b131070, 0x811acebe, 0x3ba34677, 0x9730dcf0, 0x7bc9cfc8, 0x5b9c5cf5], [0xb283c8cc, 0x1cbd950f, 0x3973a325, 0xf66dbdda, 0x6fa60257, 0x4ec5ebc2, 0x36ff26b3, 0xc01d577]⟩,
   ⟨[0x7ce2be74, 0xbb221954, 0x841e6c0c, 0x23e44e0e, 0x77c3824e, 0xe760d33d, 0x7eb3ce34, 0x5b656fbe], [0xc5f3d66e, 0xec50e509, 0x496ef8ba, 0x5326c2b8, 0x3d4b20d4, 0x3f9485f6, 0x51c21b0e, 0x11b74a85]⟩,
   ⟨[0x25e30336, 0xc3eaeb04, 0xa6e3637f, 0xa9d6c70f, 0x86f77f68, 0xf818c37e, 0xc60df35a, 0x786ed3c2], [0xd56d705a, 0xaca70ea0, 0x7bf4ef10, 0xce61608c, 0x1722c179, 0x49ad1cd8, 0x687f3222, 0x1b84fbe9]⟩,
   ⟨[0x35ee0ba9, 0x8a0f4bf1, 0x3952a08, 0x42ad2846, 0x3b60b4dd, 0x1e0e1e3b, 0xf5dcad76, 0xdc1a947], [0x1f496e03, 0x54beca4, 0x3ae6e6f6, 0x8f02fdab, 0x9b71c9f5, 0x8851cff4, 0xa7441f87, 0x6bd7271c]⟩,
   ⟨[0x9eb6a2c3, 0xb019e346, 0x931e7550, 0x2b719034, 0x40698f1f, 0x2b2cbebd, 0x4f1fc587, 0x375db591], [0x676a79a4, 0x9843166, 0xb416d657, 0x91848967, 0x9fed6b27, 0xb49ea721, 0xd080c8aa, 0x1fac5650]⟩,
   ⟨[0x58c4c2aa, 0x205cd588, 0x17f572ee, 0xbeee26f8, 0x4cb4de3a, 0xe744ab67, 0xcbe989bd, 0x37e34e18], [0x767d31b5, 0x95d9118b, 0x83e7c03e, 0x9a34dbec, 0xb8f70dd3, 0xcafdbd1a, 0x3909bb51, 0x1e68a681]⟩,
   ⟨[0x9fd96aba, 0xfe0a5dff, 0xd99b68de, 0xbbfb1fdf, 0xe3f522be, 0x5e232a4f, 0xa6428d33, 0x768c2c54], [0xdbf1a575, 0xe9cfedf9, 0x4b83f9ab, 0x841721f2, 0x80a85361, 0xfad9650a, 0x4979759, 0x31589211]⟩,
   ⟨[0xefbf2099, 0x1cf9f4b8, 0xf571408b, 0x63d5499b, 0xec3e74a6, 0x89c119fc, 0x698e4dcd, 0x525dddf], [0x7333a38c, 0x43fcdde4, 0x80a912de, 0x2150ead4, 0xa19cc55, 0x4b3bd223, 0x238ac64c, 0x3553eb4e]⟩,
   ⟨[0xfec2371f, 0x3a259f52, 0x44863d3e, 0x8b03c505, 0x86bb6522, 0x1053e2d6, 0xf7086cbe, 0x400ce699], [0x3ed78de, 0x695b1ea0, 0x16500e1b, 0xae6d09, 0x14b01815, 0x9f29b089, 0xc218d892, 0x269692b4]⟩,
   ⟨[0xf0d44e79, 0x8660280d, 0x37c0f38f, 0x69d29685, 0xb9e24ad8, 0x664b8146, 0x1e695452, 0x277cb4dd], [0xdfbf05eb, 0xb1a02d4e, 0x4a1426c7, 0x3b349308, 0x22204fe7, 0x13b79612, 0xbcb5cd9f, 0x4f80867]⟩,
   ⟨[0xe0852cbc, 0x37bdbcae, 0xbe22764c, 0x2a6d7a23, 0x25afd9ff, 0x4e0d43ac, 0xd16dd9eb, 0x1f6c9e14], [0xb4b0f47a, 0xe37e3ab3, 0x6c476c3a, 0x9e046fb, 0xb75fa2dc, 0xb8f649d9, 0xfab1ac41, 0x7962a8c4]⟩,
   ⟨[0xf6a1314a, 0xe41470, 0xe4388464, 0x176380c3, 0x9b8a2b4d, 0xdb3405cd, 0x7de02abc, 0x6299a1a6], [0x7bbe7bfa, 0x9f6b9de7, 0x9d3098dd, 0x59f16f54, 0x3b5767fe, 0xfec29c8d, 0x64955759, 0x67711bc0]⟩,
   ⟨[0xb1b07b5d, 0x34444ea3, 0x91fa2b4a, 0xb1d973b4, 0x83403a0e, 0xebebefb1, 0x8e8a8ec6, 0x56d52098], [0xa7e82d55, 0x11c93529, 0xd525c399, 0x9230ae03, 0x8db46c82, 0x74e1cbb2, 0x40be5e15, 0x4c3383cc]⟩,
   ⟨[0xcdad72f3, 0x33a52e73, 0xb9e77759, 0x1d2cca33, 0x549406f5, 0x26717716, 0x5b3db3e8, 0x70ded57f], [0x43c85a67, 0xba38f813, 0x35422bb3, 0x956f2dd7, 0x7486f18, 0x52d9fa99, 0x75d1d2c4, 0x655791bf]⟩,
   ⟨[0x1fc9e0b3, 0xf434a960, 0xbede92ad, 0x42a7b891, 0xa55a8009, 0x5a182d8, 0x38531612, 0x3404e08d], [0xf07d76e3, 0x2b5b2766, 0x1d77b90c, 0x94b1a98d, 0x4b18bb9f, 0xa86c0ec8, 0x526a81e3, 0x6532770f]⟩],
  [⟨[0x61cfe04a, 0x4429a4e8, 0x2c9ca012, 0xee867386, 0xc32d1969, 0x237a3040, 0xae2dfae, 0x400ad599], [0x213c0a18, 0x1603d10a, 0x2b1e2a57, 0x6eb8042d, 0xc7caf556, 0x4c9c1696, 0xe0c1a5a3, 0x79be04a7]⟩,
   ⟨[0x3fcb8b14, 0x161781e3, 0xb1384c3c, 0x1383e3b8, 0xb566626c, 0x5129ea19, 0x551de02a, 0x8a1f86e4], [0xaedbe04c, 0x9c648cce, 0xfb200132, 0xd4278ac, 0xc1e2d4a3, 0x466d452a, 0xb21b6e38, 0x832b0e6e]⟩,
   ⟨[0xed1d76c7, 0x20101d7c, 0xc110d85e, 0xc3282661, 0xffca2dd7, 0xb8026ce4, 0x8ba48211, 0x73b4eba5], [0xd8554e2c, 0xab94fe21, 0x81b2a181, 0x319e2fd7, 0x37e8d3e2, 0x2c824dc5, 0x9fca0ab, 0x97cd457a]⟩,
   ⟨[0xc50116cb, 0x8e4b5fbd, 0xca631a93, 0x3d20cece, 0x545575d8, 0x5f80606c, 0xf91c7908, 0x45ed55de], [0x7cc1083c, 0x91870a92, 0xd360ff5c, 0xa3828e06, 0x84003d42, 0xfc9dfcdc, 0xfac4667f, 0x733c887]⟩,
   ⟨[0xcc2fc31b, 0x6f1f771a, 0x902e8176, 0xda9351a1, 0xce3ff045, 0xfb9395af, 0x13820dab, 0x17c28ca2], [0xa684e6fa, 0xa1f596bc, 0xdad3995a, 0x89228cc7, 0xc02e458b, 0x5dbfd421, 0xa2122afe, 0x58c25045]⟩,
   ⟨[0x18eadb0, 0x2906450f, 0x9030c84e, 0x88a7a236, 0x33308084, 0x492ba7a3, 0x5605f371, 0x321388b9], [0x626ae19a, 0x5f934c94, 0x1c7ccd9, 0xe2bd6c67, 0xec0bbd52, 0xb07757b1, 0xf9edd2ac, 0x1e980338]⟩,
   ⟨[0x8831457c, 0x5a537074, 0x47e7b9a9, 0xe0e22fb, 0xa225a259, 0x7be70594, 0x30946816, 0x433db055], [0xe2f2c3cb, 0x852ea9f9, 0x2d243848, 0xdc4e8e3a, 0x1e887770, 0x10f34ab8, 0xc89fc71b, 0x29795d2c]⟩,
   ⟨[0xcfec2c6f, 0xe046b04b, 0x2ca8256e, 0xa1d3b5a0, 0xe87f767f, 0x93f7fdfa, 0x35fa3837, 0x2df5693e], [0x97884587, 0x71d9638c, 0x39e115ec, 0x175ea91f, 0xf41a27fc, 0x14e16c31, 0xeb2f5913, 0x8b2682ea]⟩,
   ⟨[0x798c7f28, 0x2bcc6853, 0xdd7d3615, 0x2f985a59, 0x41d2257a, 0xa66519e1, 0x21f719b, 0x18731d74], [0x360e9c20, 0x7210472c, 0x329a9b35, 0x4fb48411, 0x87d62ca5, 0xb33b6cb5, 0xfd0d7703, 0x86226d9e]⟩,
   ⟨[0xf67cb77c, 0xdd133f8b, 0xf6abee80, 0x381e4d62, 0x7df85ae5, 0x3236f005, 0x4610bb0e, 0x88ebb386], [0x8db908d8, 0x895aa539, 0x104c4633, 0x848142e6, 0xb8012b2e, 0x467ee770, 0x1b9210ee, 0x193cbaed]⟩,
   ⟨[0xc1f44fc1, 0x737cd32b, 0x522b6209, 0xcdf82b1c, 0xe0017f2a, 0x8f4bb70, 0x64738f26, 0x1565bcef], [0x684dcf67, 0xd2910b9, 0xc6f3eb81, 0x4ed1734b, 0xda1d6bc8, 0xcbea79b6, 0xee6a41d6, 0x470ce36]⟩,
   ⟨[0xba05af3c, 0xecfd5c66, 0xeb9bfaa8, 0x421d5540, 0x526cff85, 0xfc0e5af2, 0x53dc49a6, 0x7e17f1e6], [0x1faeb0a2, 0x69bb1dfb, 0xb3785ed4, 0xdc95661a, 0x676d7cd0, 0x1f1d7395, 0x89c6412f, 0x2c16bb96]⟩,
   ⟨[0xee414ca6, 0x2335f20e, 0xfef5e042, 0x56e0ddb2, 0xd9de2966, 0x942d4e35, 0xcf63d583, 0x80e92b8c], [0x5d492c76, 0x158be1b6, 0xc4f822d9, 0xff096960, 0x5af79379, 0xc00fc730, 0x50d34e12, 0x7c49b03]⟩,
   ⟨[0xc34836c8, 0x64678b2e, 0x615ff066, 0xcc280dcb, 0x9131ec98, 0x86c3c747, 0x2d151fad, 0x35b008cc], [0xf8133fdc, 0x22c18852, 0x2fe8809d, 0x183be4dc, 0xcf98d56d, 0x86589814, 0x2f6e0de4, 0x52d8074d]⟩,
   ⟨[0xc9274aa6, 0x33ff9f41, 0xca854af1, 0xac30acb4, 0xfbc994b7, 0x87a7be53, 0xdbcd717b, 0x6e7e8b2a], [0xcd494ab6, 0x3065a732, 0x60fd7f57, 0x6f977b87, 0xb74bad54, 0x4c216eb4, 0xf6061f7a, 0x674f00f5]⟩,
   ⟨[0x3164afbb, 0xa8c22481, 0x72a7ac55, 0x4c9e2f1d, 0x79defe94, 0xe3dac3e3, 0xbb9d953f, 0x193a1e0b], [0x7e0957ee, 0x8852020c, 0xb62f8ef7, 0xf7fd181e, 0xe26b8860, 0xde7edde, 0xfd1b00de, 0x53a05575]⟩],
  [⟨[0x63e0c8fc, 0xe5d63e1b, 0xc684016a, 0x6849b530, 0x9318ad, 0x4e89cb43, 0xef571911, 0x1cdc5918], [0xf389eaf3, 0xa6596c03, 0xe88975f9, 0x9282c1b3, 0xd53d3f2, 0xd07a2aef, 0x2b3b602c, 0x3da515d5]⟩,
   ⟨[0x8a5436ea, 0xe4285781, 0x36d65626, 0x47e3056, 0xe16489a0, 0x16b568, 0x75a0209c, 0x44603196], [0xbcc19754, 0x2be99a51, 0x5acfcdef, 0xe02eafd0, 0xaecacabb, 0xb0a1e300, 0xac1860d9, 0xf39cbde]⟩,
   ⟨[0x2099f08e, 0x50da5372, 0xca4817b1, 0xaa6aaad1, 0x57d73192, 0xa4ddc5ff, 0x7682d453, 0x46043ac], [0x28cf3f48, 0xc8eb1788, 0xdca184d4, 0x3967a02f, 0x86221941, 0xce68b79, 0xfd3a197a, 0x27bdca48]⟩,
   ⟨[0x563d7a91, 0xd774e33c, 0x7ae1c92, 0x1c309dae, 0x57dbe6a8, 0xdaba89b4, 0xe5820fa4, 0x90c62517], [0x11371109, 0x23c64605, 0x15605666, 0x1176ae7e, 0xdf040dcb, 0xd71e9755, 0x62ed515c, 0x5312a5b3]⟩,
   ⟨[0x7a5fb9e0, 0xb7aa3a11, 0x18e2cb32, 0xa769bc72, 0x6b73e050, 0x9d551b9b, 0xdb067cbc, 0xce51df0], [0x4a0e06be, 0xbf90d5, 0x7ee820e7, 0xfec6e7b3, 0x3334937a, 0xdfbac083, 0xce14cf46, 0x46884935]⟩,
   ⟨[0x902ef3a9, 0xc3f31eaf, 0x5ccdf002, 0xf3b6e6fa, 0x88cdde0f, 0x5a9b5321, 0xe8691fed, 0xd99e43], [0xcfe02c8b, 0x8e786f52, 0x4dd36f8e, 0x587aa537, 0x425cc228, 0xbca91cac, 0xbfa9c36b, 0x80aa8aa9]⟩,
   ⟨[0x9b20505a, 0xad4a2ad0, 0x16739066, 0x6d708029, 0x89f73b52, 0x729001f3, 0x8073a428, 0x77480347], [0xe84db3b4, 0x1ab38f07, 0xa6655769, 0xe643d756, 0x46c19856, 0x5631359b, 0x1c3dcd1, 0x82530a32]⟩,
   ⟨[0x2dddb968, 0x9250ec26, 0x8d82a03e, 0x63d99cbf, 0x41349b60, 0x4fbfe784, 0xa15bf2b7, 0x6977dd07], [0x68513c32, 0x771917c6, 0x8f0064f7, 0x2603518, 0x51d78637, 0x45a57429, 0x87293790, 0x56bf57cc]⟩,
   ⟨[0x32e6426, 0xbac94e24, 0xc2531b26, 0x7d54ae34, 0xcd688082, 0x4d6ef608, 0xf5aa4bee, 0x736e7acf], [0x6afb84e2, 0x41d5bf6c, 0x6e976e09, 0x40e12da5, 0x2235f7b9, 0xcbf32fcb, 0xa21bc0e0, 0x285ddf46]⟩,
   ⟨[0xce751632, 0x66c6a76e, 0x32a61a1d, 0xbd457d0e, 0x78191c57, 0xfa12a7c8, 0x6611b5e, 0x30ed98b], [0xf4972ffd, 0x199f7756, 0x9c8aab09, 0x298d98e6, 0xc5b02158, 0x2186054c, 0xb9b1147a, 0x736ce4c]⟩,
   ⟨[0x19bfa57d, 0x33e4a4ca, 0xaa70c35d, 0xf02f6d32, 0x3cc082fd, 0x9ea10b63, 0xd00e82a8, 0x86104e8e], [0x87797e25, 0xacba5e73, 0xeb85a796, 0x24dd98a8, 0xc58ac480, 0x2748827, 0x6a932d80, 0x5b4480c7]⟩,
   ⟨[0x1992b174, 0xf9e210fb, 0xbe22636e, 0x3cfa6ef1, 0x3bdfa2bd, 0xa46f202b, 0x441b96d2, 0x8c83b3da], [0x8aa39ab4, 0x3bb2ed8b, 0x9ce53fb2, 0x4db63b23, 0x46dc2104, 0x24ac8a98, 0x68e20d1b, 0x997bc4a7]⟩,
   ⟨[0xd1c0d629, 0x4cdf8757, 0xa64b6058, 0xba155719, 0xbe3fb0b1, 0x82fd0da3, 0x3e34cb1, 0x12f50694], [0x2e7dfeb, 0x8993ee38, 0x3d7a758e, 0x2fc240c6, 0xaff7cc7b, 0x75cb6f62, 0x71b02a5b, 0x2d73f74d]⟩,
   ⟨[0x550ada69, 0xb7b920a, 0xd2f1d5c2, 0x87d29f08, 0xeea99a38, 0x6e36ef9c, 0x79d7626a, 0x624874c1], [0x17f026e0, 0x9fca1b2e, 0xa3a79c2e, 0xbdbe18e5, 0x6e1b0c6d, 0x1506de6a, 0xad2a2c5f, 0x860ccd71]⟩,
   ⟨[0x28715ef9, 0xa15cb0, 0xb1c0ed6d, 0x71f337d8, 0xf998251e, 0xbd7e6892, 0x8e0a4e9, 0x4c5ab311], [0x567342fb, 0xdfd51293, 0x5ae3193b, 0xf202fcd1, 0xaf59a5a2, 0xe317c933, 0x5055de2a, 0x300fe083]⟩,
   ⟨[0xc58e7ae9, 0x279a071a, 0x4c718a8b, 0xced1f2f4, 0x5fe7f6e5, 0x3a8c0d1a, 0xbb40da93, 0x789c9b04], [0xbf2a0b9b, 0xbb7ea922, 0x3a484413, 0x5dd7a04a, 0xc5912f93, 0x3e1f49fb, 0x61ecab05, 0x4d8c07a5]⟩],
  [⟨[0x9706d4cf, 0x7d351007, 0xb9babb1f, 0x3e2b3d2e, 0xa2e423ea, 0xc73745bf, 0xf59601a0, 0xab3940a], [0x2a895c4f, 0x8881507a, 0x68652263, 0xf27f6f40, 0x88a416be, 0xcfd91814, 0x1b4f51f6, 0x13459bc3]⟩,
   ⟨[0x1c7c38a, 0x6d830e0c, 0xe27da48a, 0xba912bd4, 0x4ab8b5a6, 0x3828f433, 0xe35e88da, 0x3f858e6c], [0x6e1c033c, 0x137f2e3a, 0x7e670398, 0xfc7c8953, 0xf5c3d4db, 0x6ff761ce, 0xeed1029b, 0x53a02906]⟩,
   ⟨[0x56779c20, 0x5c597ba6, 0x43a87346, 0x366688cc, 0xa55acf91, 0x19f6da4a, 0x182dec58, 0x280ed592], [0xa1d3ebdd, 0xa1f3a7a, 0xc9f474a, 0xd92b6078, 0x19ae00dd, 0x38d0335e, 0xa97f33f7, 0x94a5772]⟩,
   ⟨[0x312d2694, 0x26a9029, 0xab5b34b8, 0x95408516, 0xded270ea, 0x9ffa9ab1, 0x493e5935, 0x1f9ddc52], [0x17244394, 0xac7f94c1, 0xf28c9df, 0x18fc29c4, 0xbd817bd9, 0xede29238, 0x8e2a7e40, 0x20dbf9af]⟩,
   ⟨[0x7648ca5c, 0x9365d9, 0x2bf27488, 0xb168191e, 0xe3b91112, 0x2481bfaa, 0x3d6db830, 0x744c505b], [0x3c464704, 0x21426d8f, 0xdaf85a61, 0x283f59ef, 0xf2716102, 0x278b5f8e, 0xfe7e7ec, 0x95b80d82]⟩,
   ⟨[0xf327664d, 0xd15ada08, 0xfe904af8, 0xf26e3232, 0xf99471c6, 0x2763dba6, 0x15f30827, 0x4bc97139], [0x5f154bf9, 0x8523812e, 0xde17f8f9, 0x839059f, 0xbc16678d, 0xea151382, 0x7890c4ef, 0x68d01e62]⟩,
   ⟨[0x9487556b, 0x37fac9fa, 0xfb4dc83d, 0xb4df5c53, 0x92969151, 0x1ef42d8c, 0x8b0ed349, 0x6c0a9d18], [0x946f31ed, 0x63e91049, 0x653f600b, 0x51e91dc6, 0x53a29196, 0xd7a582b1, 0x31e1d843, 0x452f4ad]⟩,
   ⟨[0xde8e344, 0x1224169d, 0xf329d30f, 0xf4ab4e7, 0xb525b6a4, 0x12662965, 0x255f14b8, 0x3142b612], [0xbbf468a1, 0xef6148b9, 0x144f8dff, 0x3fc413b4, 0x9bf55b34, 0xa453d075, 0x86eba319, 0x857ec763]⟩,
   ⟨[0xc16c1002, 0x7fc22e26, 0xb0b186c3, 0x2e34975e, 0x2fc79f85, 0xe11e3642, 0x9f981b5f, 0x30fe5c0e], [0x31816247, 0x73bd0fa6, 0x6906af0a, 0x40fe1661, 0x787bc7ee, 0x8d7109a3, 0x6fb9a590, 0x29452054]⟩,
   ⟨[0x4dfaaf93, 0x24654b9b, 0x9a450d29, 0x91cdea8b, 0xe4874748, 0xee55420b, 0x6d03064c, 0x1fac14c], [0xd93bd5be, 0x8a4ebde2, 0x49ef18a9, 0xcb2df307, 0x1a7b7f36, 0x36e6ac64, 0x4ac1cb8d, 0x30195423]⟩,
   ⟨[0x34f5b3ff, 0xd9970b1e, 0x587a9c5c, 0x3cfefc50, 0x7cce631e, 0x8ec1c5de, 0x52465ab8, 0x92c93e2b], [0x257017ca, 0x104df30, 0x8d8db4ce, 0xf4e5e779, 0xfdc267f0, 0xe12a39dd, 0x27c73fda, 0x683deafe]⟩,
   ⟨[0xbbc70623, 0xd0840e81, 0x4d23568e, 0x3a93c16, 0x11a71bff, 0xc52ff3d6, 0x875248e, 0x3c11fce], [0x6c4ae445, 0xbc6f184b, 0x7698ee98, 0xf52cc71f, 0xeea25223, 0x4663193e, 0x31c68dc, 0x86cd1ab3]⟩,
   ⟨[0x21e04c02, 0x221c94eb, 0x7b980f70, 0xe96bb7b3, 0x24dc2bd1, 0x60a72897, 0x5621f475, 0x8c8e019f], [0x5cfa457a, 0xae47b2f7, 0xf395c533, 0x31b2f9e1, 0x82e75849, 0x7eeb5ddc, 0x2a241e52, 0x4863a6a3]⟩,
   ⟨[0x914976ef, 0x806ac7f4, 0xca42b875, 0x5019261e, 0x6ef2d82f, 0x44f5c03d, 0x690f2aca, 0x24959f00], [0x81f0bbb6, 0x4bde2115, 0x1f701a2d, 0x1eb2c00, 0x274fb05c, 0x39f8910, 0xc625ebcd, 0x57068f24]⟩,
   ⟨[0x67ff2575, 0xb21b8c93, 0xc60b449, 0xc7826c60, 0xa98671bb, 0xd4d69a9f, 0xf5a2ab0c, 0x95249276], [0x2d1976da, 0x8f7007f0, 0xc011d54c, 0x846f2a92, 0xfa2076b1, 0xfdbf81df, 0x5583b46c, 0x3349224f]⟩,
   ⟨[0x7c854b4a, 0x62496746, 0x798b1395, 0xf92bae1d, 0xd2f65638, 0x2ebe18e3, 0x8a068f49, 0x472ff6e5], [0xda2030c2, 0x64bb0f33, 0x66f6c000, 0x72c0d0c9, 0x3194615e, 0xea837ee5, 0xfa9a7903, 0x1b7b4849]⟩],
  [⟨[0xcf9a0727, 0x27ab780c, 0x9d7486cb, 0xd457a7bc, 0xfe9f1a59, 0xfc57c335, 0xd1d9f161, 0x269d8959], [0xb81605d5, 0x6a32331, 0x6f050be0, 0x23696353, 0x413e1c0d, 0xf9350879, 0x5761a8df, 0x17019548]⟩,
   ⟨[0x6765c6a2, 0x583d3d3f, 0xbe9df3af, 0x68bba6f9, 0x85358b53, 0x7011e594, 0x53a08874, 0x3b2142e3], [0x6f5c8641, 0x4ab6137e, 0x4fe9bceb, 0x4955890e, 0x4d14da01, 0xe2f732ba, 0xbebd63d4, 0x8cb285fc]⟩,
   ⟨[0x6c74a0aa, 0x5099551b, 0xbc2c8a61, 0xf04eb8f8, 0x85983435, 0xe169f492, 0x5b808c9e, 0x764062a1], [0x65b994fb, 0x8c59a43f, 0x6068e685, 0x2fb148b7, 0x54108a9f, 0x899d4fc5, 0x5b4d40fe, 0x469ea3e]⟩,
   ⟨[0x62a76aa8, 0x15b613ea, 0x2fe2f179, 0x7e8e7d56, 0xbe98edc2, 0x53160f65, 0x9810dc27, 0x258da04e], [0x30d9c31, 0x4fee19d0, 0xc29e300f, 0xfc2c57f8, 0xc44458ae, 0x71f97, 0x709727e1, 0xaa2b911]⟩,
   ⟨[0xa61166f8, 0x443f8b23, 0xd685fcf1, 0x3e8f6278, 0x447433c6, 0xc930c1d1, 0xaed7d6eb, 0x1245a867], [0xfa89945a, 0xc35986dd, 0x26b0afee, 0x89ce1109, 0x17103d18, 0x9c6a87cd, 0xce338978, 0x811b2242]⟩,
   ⟨[0xc293255, 0xc074af66, 0x5aeac2e1, 0x982c23a9, 0xd39ac56c, 0xdb14de0c, 0x47ebb839, 0x20263f3f], [0xd10588df, 0x183ea578, 0x1eb69c36, 0xb4d88efb, 0xdbf3bee7, 0xa79a1b4d, 0xe8159e0d, 0x650fc466]⟩,
   ⟨[0xf80d5744, 0x9e6ee797, 0x825949bd, 0xdfc3ebf5, 0x7ec9bd65, 0x1083ec79, 0xb753499c, 0x62a45c5e], [0x2b6f42cf, 0x9c135f80, 0xc4b49041, 0xe39b0ba5, 0x8d3b2d06, 0x4d838513, 0xd070754b, 0x696034dc]⟩,
   ⟨[0xb8e3bdd1, 0x6313d73, 0xe6968872, 0xc7bec420, 0x3a04b7f0, 0x740dd6d3, 0x2465bed2, 0x98f2d0b7], [0x4043dbad, 0x9f298460, 0x1b5961f, 0x82d6991a, 0x54dfab8a, 0xaae7df9d, 0x1a07dd22, 0x5701e335]⟩,
   ⟨[0xfca398a2, 0x5695a08e, 0xd76e8cf, 0xd29ebc1f, 0x24004edb, 0x5ab17abf, 0xcc7a144, 0x20c7761b], [0x285ea93c, 0x6caee036, 0xf2b8bf23, 0xf9756e89, 0xb1ab91b7, 0x3cea1c76, 0x3fb4f3b8, 0x5d86860e]⟩,
   ⟨[0xfdc7dbc5, 0x835b023b, 0xeeedfd73, 0xf05c0676, 0xe52bfb27, 0xf8325d64, 0xb5032cff, 0x919d008d], [0x4b130537, 0xef27862c, 0x5ce404dc, 0x616df154, 0x451ed033, 0x182ba57e, 0xbd01f864, 0x2efec0c7]⟩,
   ⟨[0x45f3af3c, 0xdc846845, 0x92a47b31, 0x2d2ba0cd, 0xe1afe6ee, 0x9c806c7d, 0x4c6a4fea, 0x28fe43ff], [0x6c76c0f4, 0x2e028cd1, 0x2aefbdda, 0xc6fa5ad1, 0xf63f1a35, 0xc8b5339b, 0x4523f02, 0x30c780a7]⟩,
   ⟨[0xd7e4f0ce, 0x3d2dca55, 0x26616811, 0x8eef9189, 0x3c0e5892, 0xb106642f, 0x89db033e, 0x4a965385], [0xb3c2dd37, 0x5a1cbeb6, 0x156eac75, 0x5290c737, 0xe32e40c7, 0x57afd98a, 0xb3571868, 0x4a16164]⟩,
   ⟨[0x1a673e1b, 0x9ab8a3e9, 0xfc23483, 0xc707abba, 0x9e0ea0bd, 0x936c1783, 0xf71f6f1d, 0x1e4c2e7c], [0x6fb0926c, 0x37904f63, 0xc51feea5, 0x9ec76df7, 0x4d103dac, 0x2c60f7d6, 0xf9dc2cc6, 0x7b451e0b]⟩,
   ⟨[0xb2a5f07f, 0xd4f8526c, 0xb0f4ae09, 0x41303d42, 0xc182fdc, 0xac79523f, 0xaa0c5d6d, 0x8d6a75c8], [0x3cdce3f0, 0x4dd7fc95, 0x5be6da0f, 0x4ddb3910, 0x16f7e27d, 0xe34961f9, 0x5b3544eb, 0xc5cb76f]⟩,
   ⟨[0x252c354c, 0x324c95b5, 0x8cc2c3bc, 0x4648d87e, 0x82bc8c80, 0x6ddfdecd, 0xc069996e, 0x8c64cade], [0x40ed44ab, 0x4e282e96, 0x79334507, 0x70a12067, 0x5ab8902b, 0x65ce5d38, 0x7c949d96, 0x56fe68f2]⟩,
   ⟨[0xcf9530ae, 0x1d55c87e, 0xc147c2d5, 0xd1cf73ff, 0xc1f44403, 0x826031cd, 0x5eef5bfb, 0x3a06528f], [0x5f84a7b1, 0xf220eaf3, 0x350ebade, 0xbc99c905, 0x810a101c, 0x686a706e, 0x1d92eaea, 0x95e52713]⟩],
  [⟨[0x514d47c2, 0xaac634b3, 0x58b83b33, 0xd0c189b8, 0x58ca9a2f, 0x633d59e3, 0x838acc80, 0x65965ce0], [0x9b512f6e, 0xbb03f7ea, 0x9ef17a82, 0xb2f38b84, 0xe16a7a95, 0xe8382e37, 0x4d9ef607, 0x28644efe]⟩,
   ⟨[0x40a515b, 0x46f9115e, 0xfa59cd3e, 0x4c7dbcff, 0x71bb543e, 0xb4ce22b8, 0x948f80ba, 0x58d935d8], [0x3683c8b, 0x33dc1d5b, 0x2d071d87, 0x25e6113a, 0xa7d59351, 0x44f962f8, 0xbcf66b43, 0x6b818ddb]⟩,
   ⟨[0x378c1098, 0x363a63c7, 0xac5c0c9e, 0xbeb2a7b6, 0x4361c8d4, 0x3f620d3f, 0x4e3d9686, 0x68ead01a], [0x45db7208, 0x43613085, 0x13b35d33, 0x865a6dde, 0x68df09f5, 0x4eaa1663, 0xbf02aa12, 0x5fdca83f]⟩,
   ⟨[0xbfefb3cb, 0xc240feaa, 0xec6694f, 0x78e757d2, 0x2413d6a2, 0xa11a82df, 0xdbb7a220, 0x7bd656ee], [0x6eb899a4, 0x68c60873, 0x318c72e8, 0xaffb9f1c, 0x9fb7619d, 0xf16a443c, 0x42c6e4d6, 0x2fc317e3]⟩,
   ⟨[0x73f57a93, 0xab56a873, 0x308f5224, 0xe9ba24e2, 0x11992077, 0x10281b9, 0x593ead1a, 0x2cbca7fe], [0x2a1d8318, 0xb400388a, 0x3c61a0af, 0xd470abda, 0x94bd2fac, 0xf9102721, 0xfac703c, 0x222365d1]⟩,
   ⟨[0x9c2d1b2b, 0x5c9021c4, 0xcaf0b562, 0xb349db18, 0x91412cc3, 0x6daf7412, 0xcf6584d3, 0x44e5e3e5], [0xe4c17b19, 0x1d1f4244, 0x3787a38a, 0x4c663ee6, 0x313a8581, 0xa3261e22, 0x7a82c05a, 0x3ae1e1db]⟩,
   ⟨[0x3cd6a155, 0x31aa2b29, 0x3d078b12, 0xeb9527e, 0x214ff1e2, 0x6785aba2, 0xf111d572, 0x74974f84], [0x78c684b, 0x2199a753, 0x4b13a004, 0xa0f1de23, 0x75bebcbc, 0x3965ae19, 0x24562aa7, 0x22a8d7ee]⟩,
   ⟨[0xbf268ade, 0x591965f, 0x9ee48f0e, 0xf621b364, 0x5a3a3848, 0xad981a9, 0x9ecd72b7, 0x1316675c], [0xf37c87e0, 0x21a5ceb7, 0x68d1aafb, 0xef864cf3, 0xd3c9a54f, 0x5f340413, 0xe00fd564, 0xc5de1e6]⟩,
   ⟨[0xb415d72c, 0x439b2c0c, 0x63442e62, 0x106ae2e0, 0x4a79e93b, 0x8a9428c6, 0xcc2df510, 0x67fe6d6e], [0x655013b3, 0x407158bc, 0x2bc7e7cc, 0x3aaeac1c, 0xee8ec1f4, 0x399db6ef, 0xecff6657, 0x1f7d0d17]⟩,
   ⟨[0xcb86639e, 0x3039d18, 0x9cdc3408, 0x58603909, 0xf1804b9e, 0x52421109, 0xed126b9f, 0x95502857], [0x451b0539, 0xc91842d9, 0xe60aae3b, 0x2b5b11eb, 0x44cb5a14, 0xdb50f9ea, 0x89e80a6e, 0x4b5c9824]⟩,
   ⟨[0x69fc9f1a, 0x8ef3a1e5, 0x7cca576a, 0xa4eab6f4, 0xfbf1cd65, 0x955e1c89, 0xf8ce13db, 0x3e3acf6e], [0x58f31fc9, 0x1fdb6190, 0x93b0d0d5, 0x10db71b3, 0x9154b285, 0x90096143, 0x1c49eff3, 0x37eee178]⟩,
   ⟨[0xbc198066, 0x609de502, 0x40722ef6, 0x75c8631, 0xff0fa57d, 0x121acc9f, 0xec7db1a0, 0x31e79ac5], [0xf16fae79, 0x736eb95d, 0x815a14cb, 0xff963917, 0x23af0bc3, 0xc6003e5d, 0x99afcaaa, 0xd1b0350]⟩,
   ⟨[0x1f0df59d, 0x8a1b6c97, 0x59c9ca8d, 0x7df81a72, 0x9602e8be, 0x74257f8e, 0xa441657a, 0x2ffbad39], [0x48050a6, 0xb1b090db, 0x741e7392, 0xd6144221, 0xeca1e2d6, 0x63826973, 0xd287de2f, 0x28ee60b8]⟩,
   ⟨[0x5dee86ce, 0x81504295, 0x73c03937, 0xfaccb61d, 0x299b96af, 0x9898f773, 0x488f95cd, 0x51552297], [0x54f5e182, 0x6170618c, 0xc2798401, 0x9c11d666, 0x3eaf3dde, 0x88225f4b, 0x87f1185, 0x20841538]⟩,
   ⟨[0x14fa59ec, 0x42bceffe, 0x7d023f1e, 0xc41cfcda, 0x7163e802, 0xd7e4fde7, 0x2e145bce, 0x54f4c798], [0xf9162235, 0xe4ea68c9, 0x458dec24, 0x4f7eac6f, 0x845c6ad1, 0x70100d2d, 0xf1ea21b2, 0x67ac34cf]⟩,
   ⟨[0xac21c728, 0x2bd49bdf, 0xeda966df, 0x2d009b45, 0x4a9b9167, 0xd4476be, 0x95d2acd2, 0x340bd3be], [0xb040ff50, 0xf8baca2d, 0xb91d47c1, 0x307bea0d, 0xb6b3a1e4, 0x2efdc81b, 0x1595d6e2, 0x3b2cd7d9]⟩],
  [⟨[0x32a5a002, 0x56254ae7, 0x448b0a9f, 0xe48a475c, 0x14edbba9, 0x3b2df6df, 0xf5e4cc81, 0x911be369], [0x77cbb387, 0x57d065c6, 0x527575fd, 0x7c1e0142, 0x243b5c33, 0x2ca91eef, 0x5c4700cc, 0x7e54af42]⟩,
   ⟨[0x5eedf97f, 0xef5ecae5, 0xc0d821ac, 0x2d79312a, 0xa9edbe8f, 0xd3817042, 0xad924b1d, 0x7a3d537e], [0xb26ffc3b, 0xd9923a20, 0x5b81ec12, 0x651d2201, 0x54c37ff0, 0xbdf7205a, 0x8c0d2e79, 0x5562d258]⟩,
   ⟨[0xfb4842f8, 0xe5bc2e1c, 0x25b464c8, 0xcfe97824, 0x2fea9ed3, 0xd902a11a, 0x8d3dd0a4, 0x2fc360ed], [0x9e5f7ae1, 0xec4e57fc, 0x79b8af6c, 0xf0f1fd9f, 0xa9a283d0, 0x803f3ed6, 0xadeea78e, 0x5f13000f]⟩,
   ⟨[0x1838b470, 0x3ebbbd16, 0xb2781680, 0x934ba22a, 0xc7210cd4, 0xc9ed04fc, 0x4615f186, 0x716004a1], [0xe894bbc3, 0xe7b36c21, 0x570aa9a8, 0x3f739857, 0x3063902b, 0x1707fbee, 0x155c9824, 0x44fcb774]⟩,
   ⟨[0xcdd8cedb, 0x30ecd772, 0xca09bcd3, 0x67bb36fd, 0x9bc43b7b, 0xd5ad0faa, 0x6a130895, 0x3962e556], [0x7f7a565a, 0x57928253, 0x55b911ee, 0xde9d7792, 0x6984f326, 0xd5dbfdde, 0x9fb51246, 0x7cdf5e15]⟩,
   ⟨[0x89d24763, 0xd7fc427a, 0xad874362, 0x50e627c9, 0x2069873a, 0x17a8f83b, 0xdb698bd1, 0x186952d7], [0x38a2822c, 0x6c007eed, 0xc207073, 0x5f187091, 0x8d245d2, 0xd0023b63, 0x34544316, 0x7a32c2a1]⟩,
   ⟨[0x8c2635ec, 0x8b99183a, 0x6f12b137, 0xa00a9476, 0x823da313, 0x9b5e2f57, 0x47b3ceb1, 0xf7cb4af], [0x67266d24, 0xc993af7e, 0xeba985b8, 0x8b60295e, 0xe41a6f69, 0x9aa596cb, 0x4b68507a, 0x4d6cf5df]⟩,
   ⟨[0x6921defe, 0x3b8a3cbc, 0xed7b717, 0xb96d5390, 0x7de65e54, 0x6761e86a, 0x701cc1e4, 0x964460d6], [0x26c82309, 0x5c0a2213, 0x20328c60, 0xf95f5472, 0xfb49e3b5, 0xb519b476, 0xee373756, 0x89d0ab6]⟩,
   ⟨[0xdc952768, 0x947dfcf0, 0x3ab613aa, 0xd8b5c61c, 0x9a457da4, 0x146e8325, 0xf476945e, 0x37e2f6d3], [0x3851a6f6, 0x5702a441, 0x8d67ef9c, 0xb476560e, 0xf9d2ad96, 0xaba23f67, 0xdfbbb806, 0x3ce30a4e]⟩,
   ⟨[0xe5baa662, 0x64695640, 0xaaf3988, 0x2a18979a, 0xde0ed212, 0x605578ff, 0x30f2c13c, 0x52e604d5], [0x894ab3b9, 0x2e9e2d83, 0x4bc33041, 0x98b1faa, 0x863aa3c, 0x1cf6606, 0xd2951a60, 0x7334879b]⟩,
   ⟨[0xc51704f1, 0xb080105c, 0xeaee29c4, 0x1a5869b8, 0x5fdd2fd3, 0xad6aef33, 0x49c2b183, 0x83e677c4], [0xdfa8b8f4, 0x757a4efd, 0xe42f2c87, 0xfc8e7650, 0x9c963d98, 0xd4a61a3e, 0x45bc9044, 0x3750289a]⟩,
   ⟨[0x40b1c72c, 0x40a0620e, 0xb2e44573, 0xaee56ec7, 0x60532553, 0xe4e6ea3d, 0xa0eb6014, 0x5ba50e80], [0x4378cc2f, 0x84642978, 0x2a1c5fb4, 0xe322d169, 0x6b91f82d, 0x5000c9b1, 0x7aa49f2d, 0x32380cb8]⟩,
   ⟨[0xe18c4bd2, 0xa2f936a, 0xc3db9aa5, 0x7aea56aa, 0x5ddf30cb, 0x3a984e93, 0x904181c6, 0x36133d20], [0xf62dfbf5, 0xa9a65593, 0x6808b883, 0xb4ac06fd, 0x7a2fedbb, 0x98679704, 0x97880a72, 0x20e9e8e1]⟩,
   ⟨[0xceb26fae, 0x403a1ed1, 0x3cd622c9, 0xad13cd87, 0xcf45c32d, 0xc1e03929, 0xc3be1a53, 0x4b50e4a9], [0xd0d7afe3, 0xcf10f3af, 0x1494a9b4, 0x6a29b173, 0xd13b0495, 0xb9dc9849, 0x9c05b110, 0x4c50794e]⟩,
   ⟨[0x1427f71d, 0xc3c97ded, 0x966ecf33, 0xc3cfb754, 0x1fbf30cd, 0x48e30fe1, 0x1e4b0998, 0x71c96e1c], [0xb92c4bf7, 0x878d6305, 0xccb5e4a1, 0x14477130, 0xe3c00a19, 0x7c210767, 0xab3cdbf0, 0x5546dbd5]⟩,
   ⟨[0x70857571, 0xadec8758, 0xe70d07ec, 0xa52587c, 0xc731b9bc, 0xe6ceaf9e, 0x47143479, 0x1d0fde3f], [0xc5b410cb, 0x2f3be2cf, 0x4e64fd9b, 0x576004be, 0x7629820c, 0x3f33951, 0x46a450e2, 0x7bd32964]⟩],
  [⟨[0x46ced42d, 0xd492d6b7, 0x1f0092e3, 0xc068d02d, 0x8d8a822a, 0x8ecbad, 0x71045647, 0x6b326869], [0x523cba58, 0xfee3237f, 0x9c29059f, 0x77b7f50, 0xe72fbe6f, 0x42c308b3, 0x8e34148b, 0x3dd79d83]⟩,
   ⟨[0xcac24455, 0x3ed9df47, 0xd8546306, 0x7c8a7b31, 0x2aa02202, 0x4cc43295, 0x8598e028, 0x5e8b4ea3], [0x812b8070, 0x8a882f3f, 0x1dd374c0, 0x984be588, 0x16e133cf, 0x6fda8159, 0x899920d0, 0x34fb92fa]⟩,
   ⟨[0xda0b8d0e, 0x3be0416f, 0x88c053d0, 0x2cc846db, 0xb1a3a621, 0xc04c3a42, 0x8a9d9115, 0x35bc5550], [0x7fa72afe, 0x7f8c9fe3, 0xd1e914fd, 0x488fa0b4, 0x84f79359, 0x8f5c2d63, 0xfbc94785, 0x2be80429]⟩,
   ⟨[0x6f67799a, 0x391794e0, 0x677a067, 0xd9bf08ae, 0xdf61563c, 0x716d5062, 0xf590f3a3, 0xecb234a], [0xfea22392, 0xa5b91448, 0x7e76fb8b, 0xfaa29487, 0x4b6cb375, 0x3cc3a02a, 0x9022167a, 0x5c0b3b63]⟩,
   ⟨[0x4c576430, 0xc5689cf3, 0xc585f5a5, 0xf7b7b230, 0xe4bfcee7, 0xb8daadfb, 0x9cf4242f, 0x7b7d8a95], [0x398feef6, 0xc1755f9b, 0x5cc5c36e, 0x9b31cd4d, 0xf4c6b793, 0x4d87ab9c, 0xf595efa8, 0x673fd5b2]⟩,
   ⟨[0xe05e6b19, 0xa3836484, 0xfca7e6fb, 0x90c14cf, 0xfc717dbc, 0xb7a27042, 0x38647882, 0x56cd4af1], [0xa43c453e, 0xc2b56b50, 0x982e7aed, 0xcd5e768, 0x58474a8b, 0xd5abadf7, 0x99f500ac, 0x68188a38]⟩,
   ⟨[0x83b1f7ba, 0x683ac3e, 0x680568e9, 0x6a4fc30c, 0x7f6256cf, 0x735f5e48, 0x48db831, 0x1240752d], [0x868b8ad7, 0x98b78a67, 0x822eba7d, 0x9e32f2c1, 0x8f37580f, 0xeae28b1e, 0xc72eda86, 0xd204ce0]⟩,
   ⟨[0x77e8c68c, 0x5e4eaa1c, 0x859a127b, 0x282adfe9, 0x14904910, 0xc75ab7c, 0x6e751062, 0x1794516a], [0x3de4a32a, 0x8d99d891, 0x54ef2bf0, 0x957aa807, 0xb109ecd, 0xbf20a9e0, 0xa72268d3, 0x7732f2b3]⟩,
   ⟨[0x48752f76, 0xadb52e43, 0xd6f7cce8, 0x1e9f4b1, 0x2e4bd9b5, 0x22702da0, 0xb40bf9ab, 0x1bcc9c60], [0x9f53b2b1, 0xab774637, 0x8cb316d0, 0x9c574151, 0xbecbebed, 0x231d5c45, 0xf0458638, 0xbd2d5e7]⟩,
   ⟨[0x4b946132, 0xd2f5e0b5, 0x155aa2c8, 0x200a8a30, 0x56a62ce7, 0x15473fd4, 0xb6689367, 0x30ea71b], [0xe315f29, 0xd561432b, 0x149e3a9e, 0x4155022e, 0x15841273, 0xc77ef7e1, 0x52ba265a, 0x890d9c8d]⟩,
   ⟨[0x5e62451a, 0xb72b5a6a, 0x5c61a183, 0xfda85c17, 0xb7f36eb3, 0xa4275361, 0x94f4148d, 0x53adfaf3], [0x6a8467ae, 0x281d47f9, 0x8474d3ad, 0x416a64b5, 0xec99480e, 0x710d0e7a, 0x819253ff, 0x2693a878]⟩,
   ⟨[0x1a2fe406, 0x4be76904, 0x343f5b10, 0xb6feed1d, 0xd705e35c, 0x36695c52, 0x6bd3859f, 0x7df6fa41], [0xc00e77ea, 0x7b9b11f5, 0xca80f838, 0xc90411b8, 0x2908c694, 0x8a9faef0, 0xff5b39b0, 0x5f65aaa]⟩,
   ⟨[0xd7f59cc5, 0x823a0776, 0xc410dfd1, 0xb9ebe15e, 0x10a7fa3f, 0xc2374b58, 0x311660f2, 0x1b912c84], [0xd5a175e6, 0x486a2607, 0x72b74eb7, 0x9b17d14d, 0x1039ca77, 0x1069d5c4, 0x3fee08bb, 0x214605b3]⟩,
   ⟨[0xf9d14e8d, 0xc25a7379, 0x577d330e, 0x9d5fafda, 0xa4a9cef0, 0xb9a0217d, 0x8252731, 0x95afc7f7], [0x8fc51680, 0x14e53e9e, 0xa8ac4e21, 0xaea2428, 0x11cb2361, 0x6bc5e42c, 0xdcb52215, 0x3b205e45]⟩,
   ⟨[0xc916cde4, 0x8edd4718, 0xd70d7130, 0xbb08f27a, 0xed9162cb, 0x289a33c0, 0xfb69185b, 0x97cefa45], [0x8b7797ee, 0x44da2578, 0x148e9a75, 0x579b17f7, 0x913c09ae, 0x73ec1c23, 0xbaaa67d, 0x3fab86a4]⟩,
   ⟨[0x2df7be6d, 0x28e76c23, 0x500a844d, 0x526844, 0x3cc748c2, 0xb86fbb14, 0xeb5f6ac5, 0x6d89bb8a], [0x2327808c, 0xf66159df, 0x29c5006c, 0x606f0553, 0x844b6ca4, 0xdaa1107f, 0x63a8946c, 0x95d7686c]⟩],
  [⟨[0x7f7dcf5, 0x71438cea, 0xa1ccd55, 0xb3f59afa, 0xe0071b4, 0x5a439627, 0xe93d5b8e, 0x8694e3fa], [0x7d6550b0, 0x21713a38, 0x6cfcd5b, 0x893bd9f7, 0xe7513fce, 0xc3d2679c, 0x2c451ef3, 0x418ae7c8]⟩,
   ⟨[0xb85e2a9, 0xadfaff38, 0x2e244653, 0x6124e627, 0x375d1ee7, 0xf2c465af, 0x76e58455, 0x5b2302d6], [0x7479f387, 0x32938a0d, 0xaaab22a5, 0xf9a16a0d, 0x2ad65cae, 0x65af0e25, 0x8431ea40, 0x2b566866]⟩,
   ⟨[0xdbcdafab, 0xca3acc11, 0xbb7f218b, 0xbbb5dbf, 0xdb0abbe2, 0xd69e091a, 0xb0b7b09, 0x8affce95], [0xc7ec52c7, 0xa5e6c81, 0x896707cd, 0xabd60595, 0x101e0f80, 0x4ce86506, 0x4ed01b2e, 0x9629a6c0]⟩,
   ⟨[0xe15d82f4, 0x1d740eac, 0x90a5d149, 0x42f98018, 0x903d6d28, 0x1b8c8dc0, 0x5bbdff7, 0x7be2b916], [0xd8e41d96, 0xfbacf878, 0xbe26eb56, 0x42e98bfb, 0xf6de1eb1, 0x9ea73555, 0xcf79a9ee, 0x5325ddde]⟩,
   ⟨[0x48e6a22f, 0x44be62c3, 0x8db35276, 0xd0a3c0ad, 0x136fe9ba, 0xb4c99306, 0xa44e491f, 0xf2987d7], [0xccc77c2b, 0xa0965f74, 0xfe110072, 0xe01ad644, 0xc16b5e1e, 0x79528b9c, 0xf929be4d, 0x45aeeff3]⟩,
   ⟨[0x7f4da458, 0x46e95df6, 0xa7ad579b, 0x554c50c1, 0x4316dba1, 0xf64f00a1, 0x46d487bd, 0x16c98513], [0x2c048a1b, 0xecb19761, 0x5373e5e6, 0x997af398, 0xfdf23b20, 0x50e832d2, 0x7ef7e097, 0x1b358e0f]⟩,
   ⟨[0xacbc759c, 0x7c6728ae, 0xa156a466, 0x187588fb, 0x928f97bd, 0xc2e550ed, 0xaae1c05a, 0x8b595a3a], [0xd77c1125, 0xe36871e1, 0xdbbd882, 0x11e12978, 0x5e77fb7e, 0x3ef8268a, 0x6b33c00c, 0x7baea9ba]⟩,
   ⟨[0x5925e5fe, 0x7c851236, 0xd8e1597b, 0xced70ae5, 0x6dcd112f, 0x7a28be1a, 0x3b8eaf6f, 0x1eb19268], [0x8aa902b9, 0x7e6f1cf2, 0xa5a761d9, 0x3dd9d59c, 0x48d9f52e, 0x8ef70bb4, 0xcdee9658, 0x96629c1a]⟩,
   ⟨[0xb367c5b3, 0xca215eac, 0xa796338a, 0x36b22774, 0x26ebcdfe, 0x71f9a61a, 0x35119bd3, 0x1b40580a], [0x431c78bd, 0x77169ef1, 0x337022d5, 0x8197975e, 0x1d9a4742, 0x45112799, 0x19b6db07, 0x382750d6]⟩,
   ⟨[0x9786ae0b, 0x740405ee, 0x3aba0481, 0xf7f37c0f, 0x51892307, 0x904fc60c, 0xe891d639, 0x8405df2a], [0xd9b432f8, 0x53d19ac5, 0x66cd97c, 0xe8f1730f, 0xe95804b, 0xc8740fef, 0xec242811, 0x12ee433c]⟩,
   ⟨[0x6153f4d4, 0x6af4b9b1, 0xf84f0145, 0x9cd8cd0c, 0xdceb0f06, 0x6cabd4fc, 0xd134dce, 0x36bf146], [0x7effacab, 0xcdeb1818, 0x52c987e7, 0xb57a4162, 0xc647e82f, 0xdd5104eb, 0xf51b5270, 0x389aa556]⟩,
   ⟨[0x60108876, 0xc450caea, 0xf48601a1, 0xf36b5b6a, 0x9128863, 0x257950d1, 0xa9f6a1b9, 0x7a592427], [0xed12de33, 0xbf1ff2b0, 0xe2141101, 0x4d542ac8, 0xe170f9cf, 0x998523c4, 0xfcec0e2f, 0x629385ce]⟩,
   ⟨[0xb2677c49, 0x951494ed, 0xf9b648e8, 0xf1ae7138, 0x63cff359, 0x28b8749e, 0x9a73272f, 0x5ac4ec4c], [0x21723271, 0xc25abb87, 0x8b441afd, 0x488ec910, 0x1b1df775, 0x7518348, 0xf1eb2fb4, 0x4662bbda]⟩,
   ⟨[0x6df9f64a, 0xae836f74, 0xa185abe6, 0xf3cd6c9d, 0xc29a1c1a, 0xafa897a8, 0x11b2d6ac, 0x4bafbb69], [0xb6d971c7, 0x8040f9a3, 0x763eaf, 0x3b8920b7, 0x52e848b7, 0x7a1655da, 0x703fa84d, 0x3bc8b55]⟩,
   ⟨[0x1f934416, 0xe6348c65, 0xf82bbc4a, 0xdbe59c03, 0xead60547, 0x51aead09, 0x4f20111e, 0x43a35c3], [0xec574f0a, 0xaa18326, 0xfcadf79d, 0x7e90d70, 0x201cd68b, 0x3979d4ce, 0x2c2734b1, 0x7fbf2c63]⟩,
   ⟨[0x2656af49, 0x2e451373, 0xa432de06, 0xca86207d, 0x12f20637, 0xc5f9262d, 0x26c0c745, 0x7dd9ccdc], [0xa785ed89, 0x99276bdc, 0x374cfbe2, 0x34b307a7, 0x1e8ee0c5, 0x916e9b06, 0x88a85c6a, 0x4e8eb3c7]⟩],
  [⟨[0x107f1ce0, 0x6f2433ef, 0x46d23aef, 0x121de131, 0x20db44de, 0x7ac50be8, 0xf6f41a1c, 0x1e500a2b], [0x27b0004c, 0x8e5bafcc, 0xdb555c04, 0x8538a5ed, 0xce4ed544, 0xaec8a7, 0x73b2da91, 0x7c7301cc]⟩,
   ⟨[0x63284e3a, 0x3e7e1e5c, 0x1422d8ea, 0x14581400, 0x7aaabd1d, 0x5fe151bf, 0x1533b371, 0x6716691f], [0x22a8b7df, 0xa592d53e, 0x51c97935, 0x66991aff, 0xde5429b6, 0x8b10603d, 0x551f146b, 0x2f6c6]⟩,
   ⟨[0x777a334c, 0xf641cbcb, 0xeefbca44, 0xb45b21e1, 0x32f6e263, 0x7c2fcd65, 0xfeed8901, 0x5a21d80], [0x5506cf47, 0x2471b486, 0x7c9e62de, 0xffac1f7, 0x869d3bdc, 0xc4d321df, 0x9512d0ca, 0x9ac03509]⟩,
   ⟨[0x352e0353, 0x5a26e8f5, 0xbf6abbac, 0x965cf602, 0xe911c628, 0xdd8c4818, 0xdc2d04a0, 0x132ca2d8], [0x6c865c91, 0x7641cfce, 0x8e9965ef, 0xdb5ab8f3, 0xde0b7e90, 0x30030bcd, 0x2320d3f1, 0x7bf44453]⟩,
   ⟨[0xd8a99dad, 0xc006fa6d, 0xb45e64a1, 0xc042f163, 0x74f4dbb1, 0xb91c9ca4, 0xbe221e4e, 0x23bd5a29], [0x3d1ecf78, 0x6b0591d7, 0xaa5b771c, 0x9e0acf38, 0x796d4aa3, 0xc970f263, 0x7b5dd349, 0x37037502]⟩,
   ⟨[0xfbc52541, 0xe11decda, 0xe7fe53a5, 0xa49b8d39, 0x104a1f6e, 0x3a08e9bb, 0xe0192bfb, 0x95444a15], [0x1a97b875, 0xef75b062, 0xea5fc457, 0x9fc8ae5e, 0x47f73089, 0x3a09fd1b, 0xe24516ab, 0x96750ec]⟩,
   ⟨[0x4a350c95, 0xaa180046, 0x58ea4195, 0xa72f2b67, 0xfd9a4f25, 0xe0647945, 0x22737e2d, 0x4cf4136d], [0xefb2a96d, 0xee2532ce, 0x6c2f1471, 0xb39db117, 0x19935bdb, 0xf7c6242b, 0x7a820092, 0x98ca48d4]⟩,
   ⟨[0xc3c938b0, 0xe9c1ad0a, 0xccdf3bc6, 0xf7cc05c4, 0x363a9cc6, 0x3c21752b, 0x5916bd59, 0x47996b87], [0x98d17468, 0x1ef895d, 0x5818f5d8, 0x9182f882, 0xe35e4be7, 0xcbd212a3, 0x5ea16e55, 0x894e7f39]⟩,
   ⟨[0x7c8fdd7e, 0xac674aee, 0xedb0fe30, 0xa23fa827, 0x745b3230, 0x642be06f, 0xcb40941c, 0x7654c79b], [0xd6a9e988, 0x4640c0c5, 0x11a4eecb, 0xa98af661, 0x325d730e, 0xe1e827e3, 0x7d8a02de, 0x2342d880]⟩,
   ⟨[0x715db87e, 0xe4101595, 0x3c44a43a, 0x462718ab, 0xefcbc0f7, 0xf414cbc7, 0xe5999ab3, 0x2a64db21], [0x9da91e84, 0xdad841e1, 0x5f5c1cdd, 0x5a28f649, 0xb8b41bda, 0x2f8c9dca, 0x29c3697, 0x259dc791]⟩,
   ⟨[0x5296ba38, 0xd56f4ef4, 0x2ec3100, 0x4a853ba1, 0xc8ae4c47, 0xb0ed5f21, 0x61df268e, 0x53d0da0c], [0x6dc06eb6, 0xb6771dcb, 0xbb0c457f, 0x30b07595, 0xf174690d, 0xc2fd08f3, 0x87a5dc8e, 0x77000d6a]⟩,
   ⟨[0x6e1369ad, 0x90ddaa61, 0xb6a5f225, 0x3dd15ee7, 0x27aeb0dc, 0x51aa9c4, 0xe5372729, 0x18712dbb], [0xa23aff5a, 0x13b3f9df, 0x703fbff9, 0x34388ced, 0x17d60129, 0xf390d67, 0x4dae9863, 0x3f0ca25e]⟩,
   ⟨[0x903385dc, 0x6e0f5594, 0xf8a815a9, 0x47483889, 0x23b70b1c, 0x42af320c, 0x1a1aea03, 0x4a27ca27], [0x66af6f9d, 0xfaac21c8, 0xc9fbfd3e, 0x20849d90, 0xee0a541c, 0x793f889f, 0xada5d18f, 0x2555fc32]⟩,
   ⟨[0xba2bd509, 0x3f38f58c, 0x48f864b, 0x319a5f0d, 0xd5900b1e, 0xc4632f37, 0xf8519441, 0x3faf2615], [0xfe194d77, 0x6a4aa25d, 0xd681409b, 0xb5a6464a, 0xb957523a, 0x1a9326ed, 0x27098b5b, 0x7690ea4f]⟩,
   ⟨[0x10f3fde3, 0x5530e911, 0x810e7853, 0x9a40101f, 0x8f011c4e, 0x152704fc, 0x129b455f, 0x5b1702e4], [0xe60f4d30, 0x46a130ba, 0x62bbe8b5, 0xa3d57414, 0x3cfaefe3, 0xa26238da, 0x3175078e, 0x4e614113]⟩,
   ⟨[0x992ee109, 0x27bccdff, 0xfb45c6c3, 0x79f88647, 0xc73f2829, 0x7fd5d73a, 0x65a44cf1, 0x7ebe8e4e], [0x37414b2c, 0xb9ec0b94, 0x36ded49d, 0x846ad1d1, 0x62f2fe87, 0x72ae1060, 0xc032eedd, 0x7f5af329]⟩],
  [⟨[0xc7a645a5, 0x6c80b058, 0x729066ac, 0xf86341d2, 0x33fb5ce8, 0xe4f366bd, 0xc23a4751, 0x6b79d63f], [0xec3f8686, 0xfaa0f994, 0xa9ba8f5e, 0x156a6e8e, 0x9f2fae57, 0xa46ca7d5, 0x6efe66f2, 0x84cb2196]⟩,
   ⟨[0xed25185c, 0xf9c1decb, 0xb1fcfc82, 0x6dc43f21, 0xa954087b, 0x4a840262, 0xa38f667, 0x60230809], [0x1d9672b5, 0xbd345006, 0xf83361ef, 0xe0ff804b, 0xef8e1598, 0x9ddc6ce1, 0xfbd9bd0e, 0x4419f705]⟩,
   ⟨[0x3426122a, 0xf171ede4, 0x20a3963e, 0xef6a1ae2, 0x31647d0, 0xd25ab7a2, 0xcb4ca4e3, 0xfd7ec20], [0xb7d3a295, 0xc103969c, 0x34dbaba8, 0x4957509e, 0x60bc0760, 0x8456df63, 0xd63b49a9, 0x2af2033]⟩,
   ⟨[0x378e444, 0x271966a0, 0x5d15a0b7, 0x673f057d, 0xa0efe59e, 0xa55c44f9, 0x376119a6, 0x2f602f87], [0x28981502, 0xa149074, 0x8741d4f2, 0xda006774, 0x133f8479, 0x8f982c81, 0xf944319a, 0x1ecaf17a]⟩,
   ⟨[0xa37f4fc2, 0x281a234e, 0xfd34fc11, 0xafd847b2, 0x4683e11a, 0x2cc0839, 0x3f65b844, 0x71215da9], [0xefe32ac9, 0xf9f41383, 0x1361fe53, 0x4ac3d91d, 0x1cc2e948, 0x3c9fbab, 0x43379a4f, 0x9a9a4b91]⟩,
   ⟨[0x51bed5ac, 0x8d37a108, 0x998e1c19, 0x75d91890, 0x5d244730, 0xe6c76b09, 0x4cd555ff, 0x12714716], [0x29ddc669, 0xf2dce85a, 0x8d622348, 0x8914d13a, 0xdae035e8, 0x9fe6b578, 0xf41eef19, 0x21ecb251]⟩,
   ⟨[0x7999064d, 0xeaff3862, 0x96383204, 0xb72babef, 0x6bcccb43, 0x8e6c9e67, 0x7fd71298, 0x320a7d78], [0xb438a302, 0x4081e38a, 0x120e132d, 0xa15cba7, 0xec2e0939, 0x6d9123e1, 0xe0d6fec5, 0x692d699c]⟩,
   ⟨[0xc8d5d361, 0xb639adae, 0xc60a078d, 0xa8f742cc, 0x9d740f0f, 0xe8d2cf92, 0x4dce6a87, 0x6e8eeef9], [0x6a2e5164, 0x54e19488, 0x2430e4b9, 0x4372c6cf, 0x1c5b13b3, 0xd58ea91b, 0xbb9f2911, 0x796dcc45]⟩,
   ⟨[0xcbb267f9, 0xd8d4faf0, 0x703f4011, 0xc2770dbe, 0xd651402, 0x13739f02, 0x72d2b3f1, 0x7de4e51e], [0x1fe00c7e, 0xb10f966e, 0x8f42b5f8, 0x5e9a1501, 0xd00437a3, 0x6afb1ad0, 0x1473d5ae, 0x267d1536]⟩,
   ⟨[0x4cae118f, 0x1173b5db, 0xca749ee6, 0xc3a2eafd, 0x4ed4fff4, 0x64f738e6, 0xb07860b6, 0x47ddecb6], [0xbd47a901, 0xf5d627fc, 0x856c6903, 0x6493bc28, 0xea63b675, 0x90280e4b, 0xc4148666, 0x211c04a2]⟩,
   ⟨[0x6524bc38, 0xa5f0c27, 0xbb3cbdb9, 0x4b9d95fb, 0x20507c82, 0x5394adc2, 0xb4dbe448, 0x4c0c9167], [0x303a5b11, 0xac3e87ce, 0x3251f4df, 0xd31fb9c5, 0xe43ce799, 0x86c281df, 0x29fe09e4, 0x84e644d7]⟩,
   ⟨[0x43166c20, 0x6d7b61dc, 0xbd34f981, 0x54d6c035, 0xc991096d, 0xb166769d, 0x3a4cf05c, 0x51a47e3a], [0x14f5e7f1, 0x57cf9eff, 0xe39fda0d, 0xed3d4e9d, 0xbaa7e93b, 0xdf0176ec, 0x70935b9f, 0x6b2fea14]⟩,
   ⟨[0x709b70ae, 0x19f9d59e, 0x70472149, 0xd850ca32, 0x29ee6104, 0x292cadd9, 0x8fd499f2, 0x870f7c99], [0x415c6ffd, 0x200ecb1c, 0x35cb841b, 0xeea6107d, 0xf95dd333, 0x1cb06f8a, 0xe498aa7b, 0x245712fd]⟩,
   ⟨[0xed4fbd78, 0x101665ea, 0xe32d1b4, 0xc6dde1bb, 0x40150a9c, 0x3e79185e, 0x7def3607, 0x49e2ae6b], [0x308b7f59, 0xccc9b0f6, 0xce922087, 0xb267008f, 0xcf2aaba6, 0x46cf7f07, 0x9954091f, 0x5a74c8a0]⟩,
   ⟨[0x5240b5a0, 0x8f287195, 0x1845373d, 0x7ac7720f, 0x4e592274, 0xcf276b59, 0x694c30b8, 0x6bebc284], [0x677b16cd, 0xda0113d6, 0x45c9fa76, 0xa2213446, 0x66964adb, 0x2deaf2ed, 0xbc062240, 0x1977a8b3]⟩,
   ⟨[0x80303dfd, 0xeea29126, 0xe95bf6a1, 0x3e4a33ac, 0x15de0457, 0x6bfe2d5d, 0xad0976d1, 0x407bf7e3], [0x306b415b, 0x4c1f61f, 0x5f790d5f, 0xc86a75d2, 0xb7eae07b, 0x7b799ede, 0xb4a66839, 0x9155a9a0]⟩],
  [⟨[0xdce586b, 0x9745c6bb, 0xbe77b502, 0x554c8313, 0xa93962cf, 0xf0f842a9, 0xaaa141bc, 0x40862273], [0xbd62237b, 0x926ffa4a, 0x7b942f48, 0xd4f1e4a1, 0x75684fd, 0x3a841eb7, 0xdd1807e1, 0x21f6eb39]⟩,
   ⟨[0xbeda4365, 0x155dfd66, 0x27f33bf9, 0xdd575c83, 0x3dff83a1, 0x5907b08d, 0xd6788d63, 0x7e325357], [0xbac74ed7, 0xf90bf447, 0xeda226cd, 0x2de6c957, 0x1ca44607, 0x67832302, 0x56011c38, 0x22ecbc1f]⟩,
   ⟨[0xb663a46c, 0xf01279a9, 0x7e3aab83, 0x7d74c5f, 0x8c0da43e, 0xf20940b6, 0x368ad991, 0x57c6a735], [0x5007e059, 0x1e9b366, 0x9614d480, 0xfc38fc99, 0xff7da757, 0x4a3aaa18, 0xb0ce1b03, 0x4481b669]⟩,
   ⟨[0xb4a807ff, 0x9caa37a0, 0xf9b269f3, 0xbdedeb49, 0xcb607ac3, 0xc5b76e57, 0x9a322f48, 0x8aefe66], [0xd9261469, 0x6919e40d, 0x849718fa, 0x1f0ada81, 0x9d81628e, 0xcd251b54, 0x5505f9e1, 0x6519c3c6]⟩,
   ⟨[0x2f81c037, 0x277591dc, 0x76e0d41e, 0xd63ad35a, 0x6ec063d3, 0x682662b5, 0x6762a0db, 0x8210978b], [0xfe164b90, 0x5085f68, 0x3d6fd0d1, 0x50026adc, 0xb01a3791, 0x38cc9fa7, 0xb376f83e, 0x1e286652]⟩,
   ⟨[0x9759892, 0x8dffda16, 0x9ac2ce5d, 0xe011dddb, 0xbd71426b, 0xddc7670f, 0x19742f7c, 0x9722a23b], [0xdc4767d3, 0x2ea99893, 0x11125bae, 0xcb68d6c2, 0x307ed3b9, 0xac76953e, 0xc366e9a2, 0xedd0c17]⟩,
   ⟨[0x484b5272, 0x88b3dec9, 0x90380294, 0xc848ea1, 0xa01ac92c, 0xde187e83, 0x7a5d4d65, 0x2a880182], [0xb3c3c7bb, 0xd3c22c2b, 0xde7ece33, 0xc485ce02, 0xa437071a, 0xf22138c4, 0x716da53, 0x23a55c89]⟩,
   ⟨[0xf6fe058e, 0x9533c4a3, 0x748e4a4f, 0x28753f87, 0xea404c70, 0x7814c50a, 0xe91b5ef3, 0x908d1c81], [0x4094766, 0xd827d3ce, 0xce5c727, 0x7ae2fd26, 0xcdad2bdd, 0x16ac86f, 0x7a77c252, 0x37c088b0]⟩,
   ⟨[0x18a35cd3, 0xabf4c1ef, 0x698a5a01, 0x1f721491, 0x1a9e9a1f, 0x79284a12, 0x4d50df40, 0x457ff70], [0xec46ed07, 0x1d235814, 0xae5e97c8, 0xbd013752, 0xd9b100d4, 0xe085c88, 0x8858f9f3, 0x8afa070a]⟩,
   ⟨[0x698d6a59, 0xf548be3, 0xbf2d0d94, 0x5d7818a5, 0xd80e620d, 0x8e150df1, 0xf857f167, 0x4c3a5e64], [0x61bd9152, 0x837d9a98, 0x8d10687f, 0x242ce589, 0xb6b52bb7, 0x9863ea4c, 0xb7dd35ff, 0x23665b46]⟩,
   ⟨[0x73942aaf, 0x3aa5432a, 0xcee83a9, 0xb0185db4, 0xa83b907b, 0x145372ee, 0xbb6d341a, 0x609f1ad9], [0x864c92ee, 0x28c2b37a, 0xd4cc1158, 0xdd847239, 0x8f2eaf0a, 0xe5bd4fd2, 0xd24950ab, 0x4f43bc0]⟩,
   ⟨[0x88da3f20, 0x11defced, 0xa407c4a2, 0xca4ce370, 0x2f8c5cfc, 0xea70bedf, 0x8214b7f7, 0x8ac147d], [0xe260aa96, 0xecad0f77, 0xb56c30f7, 0xa868ac63, 0x396f4815, 0xf0acde5a, 0xacde6cd8, 0x302f75b9]⟩,
   ⟨[0xc5d14866, 0x2125d07d, 0x4ae3212d, 0xfe563de4, 0xee9caa2b, 0xfe787cb, 0x53802482, 0x7d9b56a2], [0x8040d1a7, 0x128b4d37, 0x30aca2f4, 0x57371299, 0x7623d14a, 0x5c443e35, 0x5fdb6310, 0x6436d328]⟩,
   ⟨[0xa8557b64, 0x531486a4, 0x9c5de310, 0x3fab4f21, 0x260468d0, 0xd872282e, 0x2542cba4, 0x4cd4568], [0x555b6e0c, 0xaca0975a, 0x8b85132f, 0xee8c43b2, 0xb9dece9d, 0xc768808b, 0x431af98c, 0x59edec60]⟩,
   ⟨[0x31992e22, 0xc365e133, 0xdc3a4c8, 0xb96c5fa0, 0xa65761b0, 0xdeb1c1da, 0xf4acab4c, 0x457676ee], [0xe674ffaf, 0xa0f95894, 0xd65cdab7, 0xfd099172, 0x54da58a2, 0x9383c2f8, 0xf24a07b, 0xa4f4c11]⟩,
   ⟨[0xe380abf3, 0x9d7a80b3, 0x9e469f9f, 0xf0c6ac5a, 0x6bd0a324, 0xc87d5727, 0x7692b063, 0x28138e37], [0xd67862ca, 0xe18c1f7d, 0x1e07f928, 0x4b6b723e, 0xbbcf4125, 0xaafe3fb0, 0x3b3ae714, 0x25400322]⟩],
  [⟨[0x63c295d8, 0xb89a2dca, 0x85041aa1, 0x5cc03c65, 0xc6514781, 0xfa9b4c5c, 0xd92388ff, 0x578031a0], [0xf92c2d77, 0xb0d5ae0a, 0x793d588a, 0x945a677e, 0x34a190e0, 0x3722de44, 0xc2b9975, 0x6ea90db8]⟩,
   ⟨[0x84ba4f9b, 0xe987aa85, 0xab43be6, 0xb2a77b9c, 0x474d8841, 0xc4ad2af6, 0x5d4fa590, 0x4ed7a82b], [0x9977ac2b, 0x9f39335e, 0x52e87607, 0x3ccd406d, 0x71456060, 0x9d18cb3f, 0x6a45d7d0, 0xfe4d888]⟩,
   ⟨[0xf42d501a, 0xaea8a911, 0x88f66fba, 0x303e25d5, 0x61740b85, 0x54213f29, 0xc0b4d835, 0x5bc13a30], [0x4758ea28, 0x569ab9b8, 0xb796a794, 0xe2e49b28, 0x320d54e2, 0x17787125, 0xc54b4465, 0x5a6a8ede]⟩,
   ⟨[0x870619dd, 0xc76c73d9, 0x84fe1078, 0xf541440e, 0x3b26a3dc, 0x2082fe36, 0xcc329b14, 0x3b896b29], [0xcafcdc20, 0xb45028a9, 0x9c56757e, 0xa1b77c6f, 0x84802e47, 0xde50d865, 0xba0892b0, 0x7dfbc0e8]⟩,
   ⟨[0x47e702bb, 0xebc505a9, 0xdacfacfe, 0x2329a41c, 0x51ddce2f, 0xea115603, 0x2e9d855a, 0x95bbc807], [0xcfd33e9f, 0x454c6b88, 0x4ffbb24a, 0x993cf6de, 0x9b2144cd, 0xa8e22ff8, 0x84943294, 0x741066ee]⟩,
   ⟨[0xf067e5b2, 0x2cee0cff, 0xca95f1c5, 0x1c1fd5a3, 0xc07b97f1, 0xa0eb8e7d, 0x7457415e, 0xf2a5d77], [0x45d06291, 0xdff92c58, 0x48ababe8, 0x709ea0ac, 0x2fdc92f0, 0xb3058feb, 0x5e5b169e, 0x55e9f86e]⟩,
   ⟨[0xebf6af2b, 0xee5df132, 0xf642a206, 0xc30dc3f1, 0x2c60cb6, 0xd7d8ec3e, 0x3178f1bf, 0x7c98946b], [0xa68799eb, 0x816c2aa1, 0x2430f06b, 0x507fd5e9, 0xb9ebd4b7, 0x21fff1c, 0x8aecfea4, 0x44365e6]⟩,
   ⟨[0x21339693, 0xdc5f5ea6, 0x90a448ad, 0x5bfd2676, 0xa12a9d77, 0xf712ba95, 0xbd8a6b5b, 0x7104735a], [0xa763bb99, 0xd2ed8304, 0x11b91a05, 0x7af040f0, 0xb61f3789, 0xc545e8ae, 0xbb386760, 0x582e9eed]⟩,
   ⟨[0xcc099185, 0xfce5877, 0xcd681e67, 0xe148bb5, 0xecb24ece, 0xe9f9013e, 0x2a386485, 0x90654b], [0x520bae8, 0x11ba700b, 0xd8e53123, 0xfc93be31, 0xe37948ee, 0x7dd7cb36, 0x3fc23444, 0x8689ae8f]⟩,
   ⟨[0xaac6616b, 0x2060f7de, 0xdeab3cc7, 0x372952c5, 0xc2424acd, 0x715c4d27, 0x308a009, 0x5846856], [0xb8b34e8, 0x887bbd55, 0xb688c987, 0x949acbd1, 0x784c4c0e, 0x3e774d49, 0xb0f5f545, 0x7aea2d11]⟩,
   ⟨[0xe831e509, 0x5335ba6b, 0x739f332e, 0x8fc4b4af, 0x95993eaf, 0xb0502462, 0xa7ceb88b, 0x7da49f36], [0x29d0c8f, 0x3be0b74b, 0x55611a8b, 0xbc07f180, 0x6583f53f, 0xc168cf41, 0xc34adbc1, 0x4256e8d2]⟩,
   ⟨[0xce2fcd89, 0x313afc75, 0xd3da44f2, 0xea27fda4, 0x9063b0dc, 0x9fabea79, 0xb3418884, 0x2df7d966], [0x80af2ebd, 0x4329fd24, 0x9f095d30, 0x36f27ff7, 0xcc84c068, 0x88ffb18f, 0x7b0a9906, 0x976427a8]⟩,
   ⟨[0xfac21087, 0xcff828cc, 0x56863cb5, 0x6b6d3484, 0xc30879f3, 0x14163a70, 0x8ca6fd5d, 0x30e2a633], [0x28a58783, 0xc7fcead6, 0xeefa1eaa, 0x945f7b09, 0x5cc66267, 0x98a503db, 0x3780061b, 0x83ee750e]⟩,
   ⟨[0xb8477d6b, 0x7061409a, 0x2b7b54fa, 0xe47c779d, 0xf293166c, 0x42f5edf5, 0x115d830f, 0x73c3ac1b], [0x4dee0980, 0xc30d346e, 0xa62f0d09, 0xee0d9a29, 0xabcb7dae, 0xbbe8dc9e, 0x68b78925, 0x4f0e78c0]⟩,
   ⟨[0xb4b14003, 0x25a0d4ff, 0xb8ab649c, 0xa4c3ac55, 0x27f9fdf5, 0x7d7ede72, 0xbc2a46d4, 0x507ec83f], [0xfaafc26f, 0x344577d9, 0x3eb30156, 0x77cbb783, 0x1d5c9367, 0x3a846ffd, 0x9df9f7be, 0x5f0d280c]⟩,
   ⟨[0x77df7f9f, 0xcc8eac0a, 0xf33a62d4, 0x195bc6ff, 0x524d78fe, 0x18a33ffa, 0x6603f9c0, 0x10e58974], [0xcda2c3f, 0x31af4b46, 0xade169c3, 0xddbf00c8, 0x71a7bc38, 0xa169c3e3, 0xa64b342e, 0x3fc352ff]⟩],
  [⟨[0xee73c673, 0x58848315, 0x8adb897e, 0x67d2f7c0, 0xf0658115, 0xe8cd786d, 0xac54d2ab, 0x23d515a], [0x67559911, 0xede61d8, 0x3c2b78b5, 0xbc12b106, 0x9e4707d8, 0xb5661a28, 0xadc095a4, 0x93fb4096]⟩,
   ⟨[0x33d5fa08, 0xeeb3810f, 0x33f4caaf, 0x8d8fc354, 0x29eb08a3, 0xed870516, 0xd1d31ebc, 0x89fd91ca], [0xede2494b, 0xd2f1f832, 0xfa8eea95, 0xcfee1d77, 0x3b0f005c, 0x13603c4a, 0xd9ef68f4, 0x6df97f85]⟩,
   ⟨[0x55410512, 0x578fbc0a, 0xdec79eee, 0x1fa404f2, 0x92b60820, 0x201fe215, 0xa56193a, 0x9a9b3ce8], [0x10b49800, 0x8a5eccb9, 0xbfdb1d8e, 0xa7373aeb, 0x4944b5df, 0x8996befa, 0x7b44246c, 0x3102d3c0]⟩,
   ⟨[0x449c09be, 0xd4a853b7, 0x51ddb7fe, 0x1f7080a4, 0xe1c27fc1, 0x8a9de52c, 0xc58b99d, 0x6585b54f], [0xb5a4ab53, 0x8eeb0601, 0x48c73ac6, 0x977d658d, 0x3d9bd223, 0xd5da0903, 0xbe115965, 0x881a5838]⟩,
   ⟨[0xeb3fc303, 0x8eb70b77, 0x98bdb841, 0xed1c4def, 0x997de9e4, 0x13e6be06, 0x9334d46d, 0x4a94c0a1], [0xf867daf, 0x184c17c8, 0x33a64148, 0x4a658026, 0xae3d4aa, 0xd177f009, 0x98ed12c0, 0x8134ac8f]⟩,
   ⟨[0x7a58ddec, 0x7a308a00, 0xfdf92df2, 0x74a15c5f, 0x21b4e345, 0x210d260e, 0xc651e31e, 0x6446715b], [0x10b905b6, 0xb1af1f84, 0xa62d366f, 0xef6cd0f2, 0xd1f6b7e3, 0x77e47b01, 0x2b95bd12, 0xf38b280]⟩,
   ⟨[0x8cccdae6, 0x52da30e1, 0xbd86a13a, 0x9f3d6636, 0xf4ea6151, 0xadfa00c5, 0x1ec37639, 0x6b93bfa0], [0xf8fe22fc, 0x443f0023, 0xa81feacc, 0xcb7848a4, 0x517e9e61, 0xce5e650a, 0xa1968e3d, 0x5842db7d]⟩,
   ⟨[0x98c06f78, 0x61ddc694, 0x7985b1a2, 0x680fede9, 0xfb53a327, 0x214cd2b8, 0xe425132b, 0x98eac0b3], [0x33e5766d, 0x5eedd76d, 0x540000a3, 0x5b280618, 0x65c894ae, 0x915d55cb, 0xd20d9523, 0x7b088a36]⟩,
   ⟨[0xc28da278, 0x51a47312, 0xefe64521, 0xe315cba4, 0x49d8d0ff, 0x3ef70a18, 0xcabd48c5, 0x990cb92], [0xa7c2fc76, 0x22ed6302, 0x2cb98186, 0xb50370ea, 0xf3f2ba8b, 0xdea88c65, 0x9fedeea, 0x9062451]⟩,
   ⟨[0xdac0f222, 0x742f9a2e, 0x95c88a8e, 0xe2a8842b, 0x9d817b14, 0x80c05765, 0x982d49ae, 0x7ed0521a], [0x907b10f7, 0x47e49d4, 0xde8ad4cd, 0x8a3e23a7, 0xeb5292b1, 0xebe8c13f, 0xa7eb70bd, 0x48a6209]⟩,
   ⟨[0x9aa34851, 0xb51665a0, 0x7c4afcee, 0x4dd5ac1b, 0x25a21937, 0xdee7ab, 0x80faf232, 0x88e2681e], [0xb5411ee2, 0x79ecd66a, 0xf370bf53, 0x6008ce3, 0xc9bbb64c, 0xcfb1850e, 0x7149b14e, 0x5fbacb27]⟩,
   ⟨[0x9938aa0c, 0xa1f0ee07, 0x74cce9c4, 0x6945e2ba, 0x46a98bea, 0x16689fce, 0xcf67df91, 0x8d71f405], [0x69621150, 0x71e4cac8, 0x89b380d8, 0x518fa200, 0x53f9e660, 0x3b3b85f1, 0xc6d9b022, 0x2643303]⟩,
   ⟨[0x7660c3e, 0xe8c478ec, 0xef41f1da, 0xa906c3a1, 0x46699b71, 0xe918f160, 0xe5be7b36, 0x2b8a0b0e], [0x889f50a0, 0xc663f0ec, 0xf9214f81, 0x7413264b, 0x421a9087, 0x2e9fa9a0, 0x83546dcd, 0x85c59b7c]⟩,
   ⟨[0x8d920a29, 0xb4a6cf39, 0x1b3956a1, 0xc857af48, 0xdd794b23, 0x519c7371, 0x8efbf8f9, 0x47846220], [0x617e4c6c, 0x184c25e5, 0xd2e51a5e, 0x218fcc23, 0x28fa0ffc, 0xb4219719, 0x781a61d9, 0x6c0bcd71]⟩,
   ⟨[0xdc7b5568, 0x440d6ddf, 0xdbbec7c, 0x64c7cc31, 0xa2dc0cba, 0x63d16d4e, 0x4504be2c, 0x7bd9e0cc], [0x2de780a8, 0x9c882895, 0xef2b2486, 0x7c6685c2, 0x957fa7d8, 0xf1fb09e9, 0x46a77a98, 0x20c6b5a5]⟩,
   ⟨[0x33c0f0c1, 0x60c77573, 0xcadda5fe, 0x40c93227, 0x9dd41d5f, 0xa48ebaa2, 0xea9fd5ad, 0x4aafbf3c], [0xc5a287ba, 0x7eb61836, 0xb31ba25e, 0x1d6a1ba2, 0xad186e52, 0x60507257, 0x2bab7451, 0x7fec8eb0]⟩],
  [⟨[0xb8da5ffe, 0x500e2fdb, 0x8cdd1b39, 0x6ae2d4ea, 0x1a5840cd, 0x38d12025, 0xc214d26d, 0x8d3b20cb], [0xc041e874, 0xef6bb36c, 0x450f2218, 0x67660393, 0xa892bdfd, 0x1e1b7782, 0x8d962e62, 0x2d69514c]⟩,
   ⟨[0x9631b095, 0x9edf5f78, 0x45bf8f20, 0xac7dd687, 0xe3262ebc, 0x257cce28, 0xe0e480a6, 0x5d32efcb], [0x6fbb99e8, 0xed48e34c, 0x23fde9b7, 0x50b1d58c, 0x6b6927c8, 0xc5164c2a, 0x8906b705, 0x8a0bc606]⟩,
   ⟨[0x2f747da8, 0x3fa3c7c9, 0x14938e08, 0x2e8d2c2e, 0xb6a1c720, 0x155a8a5b, 0xb3133fd0, 0x6b4d8c9e], [0xce131c1d, 0x79ac7f1, 0x815b7d2b, 0x9cf419af, 0xe60b6245, 0x569eb7ba, 0x9a3dd94e, 0x3c79e60]⟩,
   ⟨[0xb9ce9502, 0x328f5296, 0xe45c3576, 0xca44adbd, 0x6194ae2c, 0x66987952, 0xbf9b8c49, 0x5875f8ef], [0xda51cab8, 0x525a4d53, 0x9dc268b2, 0x91a592dd, 0xe1e3c168, 0xd7ea7958, 0xa999ed30, 0xd1e20e0]⟩,
   ⟨[0xfe8ad270, 0x55da34e5, 0x61ec55f6, 0xb0412895, 0x534569c9, 0xd45670f, 0xe23f69fb, 0x5a7e6764], [0xa8b28676, 0xbb6bbec9, 0x93b0d1d, 0x4f924558, 0xc29d841, 0xd4e4bf12, 0x578a237a, 0x67d2b4c8]⟩,
   ⟨[0x63ef2d73, 0xbdf32d6, 0x4ae4303c, 0x7248dd2d, 0x6ce1e92a, 0xbb61bab5, 0x1d7b9a6c, 0x126166e9], [0x11cebc3c, 0x4ce7086a, 0x1c71426f, 0xe7acb25e, 0x432cc4af, 0xbfb65edc, 0xcb018cf7, 0x3bca5202]⟩,
   ⟨[0x76430a87, 0xacf034f2, 0x534c42ed, 0xbfdf19b3, 0x7946cb1a, 0x5654fe6, 0x80f17880, 0xdb07e79], [0xfdcf8bc9, 0xe6e93101, 0xf798a8cd, 0xf3198b87, 0xc9683420, 0xc05444ef, 0x915d1bf1, 0x56e9aa68]⟩,
   ⟨[0x34000b11, 0xf27b298b, 0xf4196e50, 0x70ed8c95, 0x233c8764, 0xf3e16608, 0x41881557, 0x5b97655a], [0x128c195b, 0x5bf11c1a, 0x372c286d, 0xffb64333, 0x7c83bb31, 0x84d3ef7, 0x745b7d75, 0x8ecf6c01]⟩,
   ⟨[0xc6f4ff82, 0x3d6052b9, 0x6607892f, 0x9305fe45, 0x5879425f, 0x232fd87e, 0xd6f47350, 0x4caedf73], [0x32fc50d, 0x889243d2, 0xc9c11ac, 0xa6af69d7, 0x802e8e06, 0x43b5429d, 0xd70fc802, 0x38f1dea8]⟩,
   ⟨[0xc9595c08, 0x54f24344, 0x240aab3, 0x95a2e8fb, 0xc3544985, 0x7a5109d, 0xb5d30899, 0x96f44213], [0xaa347497, 0x3fab192, 0xc9cfc073, 0x47ffd3de, 0xd2c1d57f, 0x283ad765, 0x62dc271a, 0x1fdffbac]⟩,
   ⟨[0x95f80ca6, 0x2355c629, 0xcd8d880a, 0x90ae1dbb, 0xc54117e0, 0x563cc122, 0x813d7481, 0x1ef4991b], [0xcce9aede, 0x8a310d77, 0x9318642e, 0xa401faef, 0xcf9afdcb, 0xc1712a67, 0xbe499de5, 0x8d97374c]⟩,
   ⟨[0x55a0bc07, 0x7437aa3b, 0xf726dd81, 0x4946d0, 0xf341860, 0x33d41d1b, 0x17840f0d, 0x2a009eb5], [0xaa0dcdcf, 0x158f59ae, 0xeab42135, 0xf686ef2d, 0x7a80c670, 0xff6b8e82, 0xa04df944, 0x38646963]⟩,
   ⟨[0x4b987e90, 0x6bb2705e, 0xd3c36316, 0x2f5e2c4d, 0xe5a9ecec, 0x41b38905, 0x55bf8d1a, 0x2c6ba681], [0x3c92b20b, 0x1121b3b2, 0x904305d5, 0x6de41b12, 0xd569eac4, 0xa0496cf4, 0x11e5cf90, 0x5c64a06c]⟩,
   ⟨[0xe28783df, 0xa65f12ab, 0x37322285, 0x2a891b0f, 0x9811c4eb, 0xd6ff4604, 0xa8505ac0, 0x7c960ed5], [0x2fca110d, 0xe8689377, 0x60fd893e, 0x71aae292, 0x7505671d, 0x8ade5317, 0x8c508791, 0x721a07a5]⟩,
   ⟨[0xe5ecca8c, 0xc1ae9a50, 0x7eb4329, 0x7528aef5, 0xd1297d88, 0x8f0d0e03, 0x244bbc0c, 0x27c7bf76], [0xc7e7e9bb, 0x96eeda7c, 0xf96c99b3, 0xc9749bf7, 0x467b4d43, 0x44c852d2, 0x937fa21d, 0x1691d71d]⟩,
   ⟨[0xf8058a68, 0x8cac092f, 0xdae38445, 0x6b892bcf, 0x97d76059, 0x82cbece5, 0x3518f9e2, 0x5aeb6646], [0x392080b4, 0xa39c710c, 0x1502de54, 0x575dc5f4, 0x3a3d2b4d, 0xa465dd5e, 0x638eaf45, 0x281aae47]⟩],
  [⟨[0xe955a145, 0xbe40c92b, 0x324234b5, 0xd464d6bc, 0xb09d4af8, 0xe8084747, 0x5268d6c3, 0x939c70bf], [0xd1ddbb48, 0x9c9c9d25, 0x790b5b42, 0x30d9ea7f, 0x4e3914b4, 0x367fd79b, 0x826ee4d7, 0x27615f29]⟩,
   ⟨[0x50a41246, 0x9bb6f16, 0xe5459a13, 0xc72bff7a, 0xff09b2f7, 0xfc15846, 0x9cb693a, 0x6d904062], [0xf40fc67d, 0x98a132f8, 0xdf37cbfa, 0xc8b6573b, 0x99d7fc36, 0xc9cf9948, 0xa7235ddb, 0xdd66aba]⟩,
   ⟨[0xf96048bd, 0x180b525, 0x544f1e70, 0xeb566786, 0x8ef4373c, 0x8babbf9b, 0xd9e49178, 0x509ba431], [0x65a4a201, 0xf961a6f5, 0x8d44ed2d, 0xb6621df9, 0xd7b4d744, 0xeadd3c0c, 0xeaab110, 0x75d27e99]⟩,
   ⟨[0x85df5695, 0xeac7ac76, 0xda7540a3, 0x2c26274, 0xc659b610, 0xdec1bbc4, 0x3ac61eeb, 0x54483c1b], [0x217e0283, 0x8b91209a, 0x3a17ddfe, 0x939fbdaf, 0x5bf98726, 0xa82c66d6, 0x915aac76, 0x2ba82fa0]⟩,
   ⟨[0xaf4542e8, 0x99b324c1, 0xc0f225e0, 0x16ebc66f, 0x27fef57b, 0xeae69563, 0x961b03fa, 0x2996fe3c], [0x4f967a68, 0x835212e, 0xf44352dc, 0xaaabd99, 0x4b3a6b8d, 0x1874255f, 0x6d10b369, 0x45f5d8b2]⟩,
   ⟨[0xf7b7644b, 0x603dd497, 0x2d1386aa, 0x369be676, 0x14c9fa94, 0x8c1b763, 0x384af696, 0x734921d9], [0xd76e8eeb, 0xa1b5af5b, 0x42f990e8, 0xb0eae7a3, 0x69ed81d, 0x59e7c515, 0xb5a50610, 0x2d1b5e62]⟩,
   ⟨[0x85995bd3, 0xdc322810, 0x873e7a09, 0x35a47b05, 0xa70de932, 0xcdfe9bb, 0xd62fbc89, 0x49b899d], [0x652291db, 0xf6baa860, 0x9af7478f, 0x58123b25, 0x47b9f204, 0xa05ccbc2, 0x82d999a7, 0x8a0b479d]⟩,
   ⟨[0x2d0f619a, 0xa72b9b52, 0x5919c420, 0xe73b66f7, 0xd21cfefe, 0x92319c86, 0xf1635f0e, 0x58eefc71], [0xda909290, 0xdc481783, 0x66316584, 0x144e7a98, 0x45e1e3c8, 0xbd7e657f, 0xbd93938c, 0x5c9fcd1c]⟩,
   ⟨[0x436c1ab3, 0x2339e2fa, 0xc26768aa, 0x69c22269, 0x40fcbd90, 0x94dfcaf4, 0xc41d4f61, 0x56235739], [0x718468d3, 0x6e50d4db, 0xcadcec6c, 0xdea80730, 0x63dc3c43, 0x924ff97e, 0x6752ea6a, 0x1b652825]⟩,
   ⟨[0xf07be4bb, 0xac2bdcdd, 0x8db0a32d, 0xb46d8e96, 0xb618488d, 0xdd661c68, 0x75e1e4bf, 0x8ed22d4b], [0x3c177d80, 0x5dd2e5df, 0x82803711, 0x5049c012, 0x73e0ba27, 0xfb243b3f, 0x8c7810d5, 0xc756ba0]⟩,
   ⟨[0x6f16fbca, 0xfc58f0bd, 0xa5e33b36, 0xa855bb8c, 0x99d08247, 0xb9239eb4, 0x49caf40d, 0x27abc78d], [0xa1285278, 0x88be1595, 0x60f16638, 0x9d5aee5b, 0x1fce4327, 0x3f381529, 0xf19caa04, 0x17206899]⟩,
   ⟨[0x9e047f55, 0x58616348, 0xe991fc4c, 0xd6098a5, 0x99a33914, 0x47760f98, 0x5608c80e, 0x70c8f5d4], [0x6036dbe, 0x405f1191, 0x80cc0a27, 0xbf625895, 0x389fa7bf, 0xfb8a0330, 0x1fa0cbb4, 0x22b0b946]⟩,
   ⟨[0x1b1e2acd, 0x84ae1981, 0x63961891, 0xfa23c205, 0x742c1653, 0xcf4c685e, 0x4d303078, 0x55bfc744], [0xba03aae4, 0xeb131cbb, 0x2c5b9eab, 0xf338c0db, 0xb7495209, 0xc1006396, 0xf7e6a4e6, 0xfd928cf]⟩,
   ⟨[0x8633ab84, 0xa6bac994, 0x75364642, 0xc165bf5a, 0x8c57070d, 0xb70beb47, 0xd416322e, 0x838158a0], [0xd4957751, 0x501d2bfd, 0xc23aa730, 0xf1cddf32, 0x5458f1c6, 0xf64558a8, 0x6e1209c, 0x51b6dde3]⟩,
   ⟨[0xcc31d6be, 0x712c186, 0x33cd1d3f, 0x91c4064a, 0xc7c91f53, 0xcadae5b0, 0xdeb2a2ee, 0x52aa408f], [0x202719d5, 0x58675cc, 0x1d087d07, 0x444f99f5, 0x9d7a8af4, 0x4db587e8, 0xda17095a, 0x389376f5]⟩,
   ⟨[0x48fed385, 0x8262d370, 0x1ae92689, 0x3b1fb466, 0x24242cf4, 0xda6f570f, 0xdeac5e9, 0x532fc9e], [0x20c5bd7b, 0x5e8fb740, 0x2624b3, 0x5ae99925, 0x7afadc15, 0xad44a4d5, 0xdf409330, 0x6aecbc80]⟩]]

/-- `lut_cmb[j][k]`. -/
def lut_cmb (j k : Nat) : AffW (List Nat) := (lut_data.getD j []).getD k ⟨[], []⟩

end Gost.Ecp_CryptoPro_C_32

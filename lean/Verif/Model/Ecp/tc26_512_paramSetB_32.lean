import Verif.Model.FiatField

/-!
# The functions, constants and table of `/repo/ecp_id_tc26_gost_3410_2012_512_paramSetB.c`

32 bit version of the file (`__SIZEOF_INT128__` is not defined).  Generated by `tools/mkfiat.py`, statement by statement;
see `Verif/Model/Fiat.lean` for the meaning.  All line numbers refer to this file.
-/

namespace Gost.Ecp_tc26_512_paramSetB_32

set_option maxRecDepth 100000

/-- `fiat_id_tc26_gost_3410_2012_512_paramSetB_mul`, lines 7221-11733. -/
def mul : CProg := ⟨[
  .set (.a 1), .set (.a 2), .set (.a 3), .set (.a 4), .set (.a 5), .set (.a 6), .set (.a 7), .set (.a 8), .set (.a 9), .set (.a 10),
  .set (.a 11), .set (.a 12), .set (.a 13), .set (.a 14), .set (.a 15), .set (.a 0), .mulx 32 (.x 16) (.b 15), .mulx 32 (.x 16) (.b 14),
  .mulx 32 (.x 16) (.b 13), .mulx 32 (.x 16) (.b 12), .mulx 32 (.x 16) (.b 11), .mulx 32 (.x 16) (.b 10), .mulx 32 (.x 16) (.b 9),
  .mulx 32 (.x 16) (.b 8), .mulx 32 (.x 16) (.b 7), .mulx 32 (.x 16) (.b 6), .mulx 32 (.x 16) (.b 5), .mulx 32 (.x 16) (.b 4),
  .mulx 32 (.x 16) (.b 3), .mulx 32 (.x 16) (.b 2), .mulx 32 (.x 16) (.b 1), .mulx 32 (.x 16) (.b 0), .adc 64 32 (.c 0) (.x 48) (.x 45),
  .adc 64 32 (.x 50) (.x 46) (.x 43), .adc 64 32 (.x 52) (.x 44) (.x 41), .adc 64 32 (.x 54) (.x 42) (.x 39),
  .adc 64 32 (.x 56) (.x 40) (.x 37), .adc 64 32 (.x 58) (.x 38) (.x 35), .adc 64 32 (.x 60) (.x 36) (.x 33),
  .adc 64 32 (.x 62) (.x 34) (.x 31), .adc 64 32 (.x 64) (.x 32) (.x 29), .adc 64 32 (.x 66) (.x 30) (.x 27),
  .adc 64 32 (.x 68) (.x 28) (.x 25), .adc 64 32 (.x 70) (.x 26) (.x 23), .adc 64 32 (.x 72) (.x 24) (.x 21),
  .adc 64 32 (.x 74) (.x 22) (.x 19), .adc 64 32 (.x 76) (.x 20) (.x 17), .set (.add 32 (.x 78) (.x 18)), .mulx 32 (.x 47) (.c 0x24e6a171),
  .mulx 32 (.x 80) (.c 0x80000000), .mulx 32 (.x 80) (.c 0x6f), .adc 64 32 (.c 0) (.x 47) (.x 84), .adc 64 32 (.x 87) (.x 49) (.x 85),
  .adc 64 32 (.x 89) (.x 51) (.c 0), .adc 64 32 (.x 91) (.x 53) (.c 0), .adc 64 32 (.x 93) (.x 55) (.c 0),
  .adc 64 32 (.x 95) (.x 57) (.c 0), .adc 64 32 (.x 97) (.x 59) (.c 0), .adc 64 32 (.x 99) (.x 61) (.c 0),
  .adc 64 32 (.x 101) (.x 63) (.c 0), .adc 64 32 (.x 103) (.x 65) (.c 0), .adc 64 32 (.x 105) (.x 67) (.c 0),
  .adc 64 32 (.x 107) (.x 69) (.c 0), .adc 64 32 (.x 109) (.x 71) (.c 0), .adc 64 32 (.x 111) (.x 73) (.c 0),
  .adc 64 32 (.x 113) (.x 75) (.c 0), .adc 64 32 (.x 115) (.x 77) (.x 82), .adc 64 32 (.x 117) (.x 79) (.x 83), .mulx 32 (.x 1) (.b 15),
  .mulx 32 (.x 1) (.b 14), .mulx 32 (.x 1) (.b 13), .mulx 32 (.x 1) (.b 12), .mulx 32 (.x 1) (.b 11), .mulx 32 (.x 1) (.b 10),
  .mulx 32 (.x 1) (.b 9), .mulx 32 (.x 1) (.b 8), .mulx 32 (.x 1) (.b 7), .mulx 32 (.x 1) (.b 6), .mulx 32 (.x 1) (.b 5),
  .mulx 32 (.x 1) (.b 4), .mulx 32 (.x 1) (.b 3), .mulx 32 (.x 1) (.b 2), .mulx 32 (.x 1) (.b 1), .mulx 32 (.x 1) (.b 0),
  .adc 64 32 (.c 0) (.x 151) (.x 148), .adc 64 32 (.x 153) (.x 149) (.x 146), .adc 64 32 (.x 155) (.x 147) (.x 144),
  .adc 64 32 (.x 157) (.x 145) (.x 142), .adc 64 32 (.x 159) (.x 143) (.x 140), .adc 64 32 (.x 161) (.x 141) (.x 138),
  .adc 64 32 (.x 163) (.x 139) (.x 136), .adc 64 32 (.x 165) (.x 137) (.x 134), .adc 64 32 (.x 167) (.x 135) (.x 132),
  .adc 64 32 (.x 169) (.x 133) (.x 130), .adc 64 32 (.x 171) (.x 131) (.x 128), .adc 64 32 (.x 173) (.x 129) (.x 126),
  .adc 64 32 (.x 175) (.x 127) (.x 124), .adc 64 32 (.x 177) (.x 125) (.x 122), .adc 64 32 (.x 179) (.x 123) (.x 120),
  .set (.add 32 (.x 181) (.x 121)), .adc 64 32 (.c 0) (.x 88) (.x 150), .adc 64 32 (.x 184) (.x 90) (.x 152),
  .adc 64 32 (.x 186) (.x 92) (.x 154), .adc 64 32 (.x 188) (.x 94) (.x 156), .adc 64 32 (.x 190) (.x 96) (.x 158),
  .adc 64 32 (.x 192) (.x 98) (.x 160), .adc 64 32 (.x 194) (.x 100) (.x 162), .adc 64 32 (.x 196) (.x 102) (.x 164),
  .adc 64 32 (.x 198) (.x 104) (.x 166), .adc 64 32 (.x 200) (.x 106) (.x 168), .adc 64 32 (.x 202) (.x 108) (.x 170),
  .adc 64 32 (.x 204) (.x 110) (.x 172), .adc 64 32 (.x 206) (.x 112) (.x 174), .adc 64 32 (.x 208) (.x 114) (.x 176),
  .adc 64 32 (.x 210) (.x 116) (.x 178), .adc 64 32 (.x 212) (.x 118) (.x 180), .adc 64 32 (.x 214) (.x 119) (.x 182),
  .mulx 32 (.x 183) (.c 0x24e6a171), .mulx 32 (.x 217) (.c 0x80000000), .mulx 32 (.x 217) (.c 0x6f), .adc 64 32 (.c 0) (.x 183) (.x 221),
  .adc 64 32 (.x 224) (.x 185) (.x 222), .adc 64 32 (.x 226) (.x 187) (.c 0), .adc 64 32 (.x 228) (.x 189) (.c 0),
  .adc 64 32 (.x 230) (.x 191) (.c 0), .adc 64 32 (.x 232) (.x 193) (.c 0), .adc 64 32 (.x 234) (.x 195) (.c 0),
  .adc 64 32 (.x 236) (.x 197) (.c 0), .adc 64 32 (.x 238) (.x 199) (.c 0), .adc 64 32 (.x 240) (.x 201) (.c 0),
  .adc 64 32 (.x 242) (.x 203) (.c 0), .adc 64 32 (.x 244) (.x 205) (.c 0), .adc 64 32 (.x 246) (.x 207) (.c 0),
  .adc 64 32 (.x 248) (.x 209) (.c 0), .adc 64 32 (.x 250) (.x 211) (.c 0), .adc 64 32 (.x 252) (.x 213) (.x 219),
  .adc 64 32 (.x 254) (.x 215) (.x 220), .set (.add 32 (.x 256) (.x 216)), .mulx 32 (.x 2) (.b 15), .mulx 32 (.x 2) (.b 14),
  .mulx 32 (.x 2) (.b 13), .mulx 32 (.x 2) (.b 12), .mulx 32 (.x 2) (.b 11), .mulx 32 (.x 2) (.b 10), .mulx 32 (.x 2) (.b 9),
  .mulx 32 (.x 2) (.b 8), .mulx 32 (.x 2) (.b 7), .mulx 32 (.x 2) (.b 6), .mulx 32 (.x 2) (.b 5), .mulx 32 (.x 2) (.b 4),
  .mulx 32 (.x 2) (.b 3), .mulx 32 (.x 2) (.b 2), .mulx 32 (.x 2) (.b 1), .mulx 32 (.x 2) (.b 0), .adc 64 32 (.c 0) (.x 289) (.x 286),
  .adc 64 32 (.x 291) (.x 287) (.x 284), .adc 64 32 (.x 293) (.x 285) (.x 282), .adc 64 32 (.x 295) (.x 283) (.x 280),
  .adc 64 32 (.x 297) (.x 281) (.x 278), .adc 64 32 (.x 299) (.x 279) (.x 276), .adc 64 32 (.x 301) (.x 277) (.x 274),
  .adc 64 32 (.x 303) (.x 275) (.x 272), .adc 64 32 (.x 305) (.x 273) (.x 270), .adc 64 32 (.x 307) (.x 271) (.x 268),
  .adc 64 32 (.x 309) (.x 269) (.x 266), .adc 64 32 (.x 311) (.x 267) (.x 264), .adc 64 32 (.x 313) (.x 265) (.x 262),
  .adc 64 32 (.x 315) (.x 263) (.x 260), .adc 64 32 (.x 317) (.x 261) (.x 258), .set (.add 32 (.x 319) (.x 259)),
  .adc 64 32 (.c 0) (.x 225) (.x 288), .adc 64 32 (.x 322) (.x 227) (.x 290), .adc 64 32 (.x 324) (.x 229) (.x 292),
  .adc 64 32 (.x 326) (.x 231) (.x 294), .adc 64 32 (.x 328) (.x 233) (.x 296), .adc 64 32 (.x 330) (.x 235) (.x 298),
  .adc 64 32 (.x 332) (.x 237) (.x 300), .adc 64 32 (.x 334) (.x 239) (.x 302), .adc 64 32 (.x 336) (.x 241) (.x 304),
  .adc 64 32 (.x 338) (.x 243) (.x 306), .adc 64 32 (.x 340) (.x 245) (.x 308), .adc 64 32 (.x 342) (.x 247) (.x 310),
  .adc 64 32 (.x 344) (.x 249) (.x 312), .adc 64 32 (.x 346) (.x 251) (.x 314), .adc 64 32 (.x 348) (.x 253) (.x 316),
  .adc 64 32 (.x 350) (.x 255) (.x 318), .adc 64 32 (.x 352) (.x 257) (.x 320), .mulx 32 (.x 321) (.c 0x24e6a171),
  .mulx 32 (.x 355) (.c 0x80000000), .mulx 32 (.x 355) (.c 0x6f), .adc 64 32 (.c 0) (.x 321) (.x 359),
  .adc 64 32 (.x 362) (.x 323) (.x 360), .adc 64 32 (.x 364) (.x 325) (.c 0), .adc 64 32 (.x 366) (.x 327) (.c 0),
  .adc 64 32 (.x 368) (.x 329) (.c 0), .adc 64 32 (.x 370) (.x 331) (.c 0), .adc 64 32 (.x 372) (.x 333) (.c 0),
  .adc 64 32 (.x 374) (.x 335) (.c 0), .adc 64 32 (.x 376) (.x 337) (.c 0), .adc 64 32 (.x 378) (.x 339) (.c 0),
  .adc 64 32 (.x 380) (.x 341) (.c 0), .adc 64 32 (.x 382) (.x 343) (.c 0), .adc 64 32 (.x 384) (.x 345) (.c 0),
  .adc 64 32 (.x 386) (.x 347) (.c 0), .adc 64 32 (.x 388) (.x 349) (.c 0), .adc 64 32 (.x 390) (.x 351) (.x 357),
  .adc 64 32 (.x 392) (.x 353) (.x 358), .set (.add 32 (.x 394) (.x 354)), .mulx 32 (.x 3) (.b 15), .mulx 32 (.x 3) (.b 14),
  .mulx 32 (.x 3) (.b 13), .mulx 32 (.x 3) (.b 12), .mulx 32 (.x 3) (.b 11), .mulx 32 (.x 3) (.b 10), .mulx 32 (.x 3) (.b 9),
  .mulx 32 (.x 3) (.b 8), .mulx 32 (.x 3) (.b 7), .mulx 32 (.x 3) (.b 6), .mulx 32 (.x 3) (.b 5), .mulx 32 (.x 3) (.b 4),
  .mulx 32 (.x 3) (.b 3), .mulx 32 (.x 3) (.b 2), .mulx 32 (.x 3) (.b 1), .mulx 32 (.x 3) (.b 0), .adc 64 32 (.c 0) (.x 427) (.x 424),
  .adc 64 32 (.x 429) (.x 425) (.x 422), .adc 64 32 (.x 431) (.x 423) (.x 420), .adc 64 32 (.x 433) (.x 421) (.x 418),
  .adc 64 32 (.x 435) (.x 419) (.x 416), .adc 64 32 (.x 437) (.x 417) (.x 414), .adc 64 32 (.x 439) (.x 415) (.x 412),
  .adc 64 32 (.x 441) (.x 413) (.x 410), .adc 64 32 (.x 443) (.x 411) (.x 408), .adc 64 32 (.x 445) (.x 409) (.x 406),
  .adc 64 32 (.x 447) (.x 407) (.x 404), .adc 64 32 (.x 449) (.x 405) (.x 402), .adc 64 32 (.x 451) (.x 403) (.x 400),
  .adc 64 32 (.x 453) (.x 401) (.x 398), .adc 64 32 (.x 455) (.x 399) (.x 396), .set (.add 32 (.x 457) (.x 397)),
  .adc 64 32 (.c 0) (.x 363) (.x 426), .adc 64 32 (.x 460) (.x 365) (.x 428), .adc 64 32 (.x 462) (.x 367) (.x 430),
  .adc 64 32 (.x 464) (.x 369) (.x 432), .adc 64 32 (.x 466) (.x 371) (.x 434), .adc 64 32 (.x 468) (.x 373) (.x 436),
  .adc 64 32 (.x 470) (.x 375) (.x 438), .adc 64 32 (.x 472) (.x 377) (.x 440), .adc 64 32 (.x 474) (.x 379) (.x 442),
  .adc 64 32 (.x 476) (.x 381) (.x 444), .adc 64 32 (.x 478) (.x 383) (.x 446), .adc 64 32 (.x 480) (.x 385) (.x 448),
  .adc 64 32 (.x 482) (.x 387) (.x 450), .adc 64 32 (.x 484) (.x 389) (.x 452), .adc 64 32 (.x 486) (.x 391) (.x 454),
  .adc 64 32 (.x 488) (.x 393) (.x 456), .adc 64 32 (.x 490) (.x 395) (.x 458), .mulx 32 (.x 459) (.c 0x24e6a171),
  .mulx 32 (.x 493) (.c 0x80000000), .mulx 32 (.x 493) (.c 0x6f), .adc 64 32 (.c 0) (.x 459) (.x 497),
  .adc 64 32 (.x 500) (.x 461) (.x 498), .adc 64 32 (.x 502) (.x 463) (.c 0), .adc 64 32 (.x 504) (.x 465) (.c 0),
  .adc 64 32 (.x 506) (.x 467) (.c 0), .adc 64 32 (.x 508) (.x 469) (.c 0), .adc 64 32 (.x 510) (.x 471) (.c 0),
  .adc 64 32 (.x 512) (.x 473) (.c 0), .adc 64 32 (.x 514) (.x 475) (.c 0), .adc 64 32 (.x 516) (.x 477) (.c 0),
  .adc 64 32 (.x 518) (.x 479) (.c 0), .adc 64 32 (.x 520) (.x 481) (.c 0), .adc 64 32 (.x 522) (.x 483) (.c 0),
  .adc 64 32 (.x 524) (.x 485) (.c 0), .adc 64 32 (.x 526) (.x 487) (.c 0), .adc 64 32 (.x 528) (.x 489) (.x 495),
  .adc 64 32 (.x 530) (.x 491) (.x 496), .set (.add 32 (.x 532) (.x 492)), .mulx 32 (.x 4) (.b 15), .mulx 32 (.x 4) (.b 14),
  .mulx 32 (.x 4) (.b 13), .mulx 32 (.x 4) (.b 12), .mulx 32 (.x 4) (.b 11), .mulx 32 (.x 4) (.b 10), .mulx 32 (.x 4) (.b 9),
  .mulx 32 (.x 4) (.b 8), .mulx 32 (.x 4) (.b 7), .mulx 32 (.x 4) (.b 6), .mulx 32 (.x 4) (.b 5), .mulx 32 (.x 4) (.b 4),
  .mulx 32 (.x 4) (.b 3), .mulx 32 (.x 4) (.b 2), .mulx 32 (.x 4) (.b 1), .mulx 32 (.x 4) (.b 0), .adc 64 32 (.c 0) (.x 565) (.x 562),
  .adc 64 32 (.x 567) (.x 563) (.x 560), .adc 64 32 (.x 569) (.x 561) (.x 558), .adc 64 32 (.x 571) (.x 559) (.x 556),
  .adc 64 32 (.x 573) (.x 557) (.x 554), .adc 64 32 (.x 575) (.x 555) (.x 552), .adc 64 32 (.x 577) (.x 553) (.x 550),
  .adc 64 32 (.x 579) (.x 551) (.x 548), .adc 64 32 (.x 581) (.x 549) (.x 546), .adc 64 32 (.x 583) (.x 547) (.x 544),
  .adc 64 32 (.x 585) (.x 545) (.x 542), .adc 64 32 (.x 587) (.x 543) (.x 540), .adc 64 32 (.x 589) (.x 541) (.x 538),
  .adc 64 32 (.x 591) (.x 539) (.x 536), .adc 64 32 (.x 593) (.x 537) (.x 534), .set (.add 32 (.x 595) (.x 535)),
  .adc 64 32 (.c 0) (.x 501) (.x 564), .adc 64 32 (.x 598) (.x 503) (.x 566), .adc 64 32 (.x 600) (.x 505) (.x 568),
  .adc 64 32 (.x 602) (.x 507) (.x 570), .adc 64 32 (.x 604) (.x 509) (.x 572), .adc 64 32 (.x 606) (.x 511) (.x 574),
  .adc 64 32 (.x 608) (.x 513) (.x 576), .adc 64 32 (.x 610) (.x 515) (.x 578), .adc 64 32 (.x 612) (.x 517) (.x 580),
  .adc 64 32 (.x 614) (.x 519) (.x 582), .adc 64 32 (.x 616) (.x 521) (.x 584), .adc 64 32 (.x 618) (.x 523) (.x 586),
  .adc 64 32 (.x 620) (.x 525) (.x 588), .adc 64 32 (.x 622) (.x 527) (.x 590), .adc 64 32 (.x 624) (.x 529) (.x 592),
  .adc 64 32 (.x 626) (.x 531) (.x 594), .adc 64 32 (.x 628) (.x 533) (.x 596), .mulx 32 (.x 597) (.c 0x24e6a171),
  .mulx 32 (.x 631) (.c 0x80000000), .mulx 32 (.x 631) (.c 0x6f), .adc 64 32 (.c 0) (.x 597) (.x 635),
  .adc 64 32 (.x 638) (.x 599) (.x 636), .adc 64 32 (.x 640) (.x 601) (.c 0), .adc 64 32 (.x 642) (.x 603) (.c 0),
  .adc 64 32 (.x 644) (.x 605) (.c 0), .adc 64 32 (.x 646) (.x 607) (.c 0), .adc 64 32 (.x 648) (.x 609) (.c 0),
  .adc 64 32 (.x 650) (.x 611) (.c 0), .adc 64 32 (.x 652) (.x 613) (.c 0), .adc 64 32 (.x 654) (.x 615) (.c 0),
  .adc 64 32 (.x 656) (.x 617) (.c 0), .adc 64 32 (.x 658) (.x 619) (.c 0), .adc 64 32 (.x 660) (.x 621) (.c 0),
  .adc 64 32 (.x 662) (.x 623) (.c 0), .adc 64 32 (.x 664) (.x 625) (.c 0), .adc 64 32 (.x 666) (.x 627) (.x 633),
  .adc 64 32 (.x 668) (.x 629) (.x 634), .set (.add 32 (.x 670) (.x 630)), .mulx 32 (.x 5) (.b 15), .mulx 32 (.x 5) (.b 14),
  .mulx 32 (.x 5) (.b 13), .mulx 32 (.x 5) (.b 12), .mulx 32 (.x 5) (.b 11), .mulx 32 (.x 5) (.b 10), .mulx 32 (.x 5) (.b 9),
  .mulx 32 (.x 5) (.b 8), .mulx 32 (.x 5) (.b 7), .mulx 32 (.x 5) (.b 6), .mulx 32 (.x 5) (.b 5), .mulx 32 (.x 5) (.b 4),
  .mulx 32 (.x 5) (.b 3), .mulx 32 (.x 5) (.b 2), .mulx 32 (.x 5) (.b 1), .mulx 32 (.x 5) (.b 0), .adc 64 32 (.c 0) (.x 703) (.x 700),
  .adc 64 32 (.x 705) (.x 701) (.x 698), .adc 64 32 (.x 707) (.x 699) (.x 696), .adc 64 32 (.x 709) (.x 697) (.x 694),
  .adc 64 32 (.x 711) (.x 695) (.x 692), .adc 64 32 (.x 713) (.x 693) (.x 690), .adc 64 32 (.x 715) (.x 691) (.x 688),
  .adc 64 32 (.x 717) (.x 689) (.x 686), .adc 64 32 (.x 719) (.x 687) (.x 684), .adc 64 32 (.x 721) (.x 685) (.x 682),
  .adc 64 32 (.x 723) (.x 683) (.x 680), .adc 64 32 (.x 725) (.x 681) (.x 678), .adc 64 32 (.x 727) (.x 679) (.x 676),
  .adc 64 32 (.x 729) (.x 677) (.x 674), .adc 64 32 (.x 731) (.x 675) (.x 672), .set (.add 32 (.x 733) (.x 673)),
  .adc 64 32 (.c 0) (.x 639) (.x 702), .adc 64 32 (.x 736) (.x 641) (.x 704), .adc 64 32 (.x 738) (.x 643) (.x 706),
  .adc 64 32 (.x 740) (.x 645) (.x 708), .adc 64 32 (.x 742) (.x 647) (.x 710), .adc 64 32 (.x 744) (.x 649) (.x 712),
  .adc 64 32 (.x 746) (.x 651) (.x 714), .adc 64 32 (.x 748) (.x 653) (.x 716), .adc 64 32 (.x 750) (.x 655) (.x 718),
  .adc 64 32 (.x 752) (.x 657) (.x 720), .adc 64 32 (.x 754) (.x 659) (.x 722), .adc 64 32 (.x 756) (.x 661) (.x 724),
  .adc 64 32 (.x 758) (.x 663) (.x 726), .adc 64 32 (.x 760) (.x 665) (.x 728), .adc 64 32 (.x 762) (.x 667) (.x 730),
  .adc 64 32 (.x 764) (.x 669) (.x 732), .adc 64 32 (.x 766) (.x 671) (.x 734), .mulx 32 (.x 735) (.c 0x24e6a171),
  .mulx 32 (.x 769) (.c 0x80000000), .mulx 32 (.x 769) (.c 0x6f), .adc 64 32 (.c 0) (.x 735) (.x 773),
  .adc 64 32 (.x 776) (.x 737) (.x 774), .adc 64 32 (.x 778) (.x 739) (.c 0), .adc 64 32 (.x 780) (.x 741) (.c 0),
  .adc 64 32 (.x 782) (.x 743) (.c 0), .adc 64 32 (.x 784) (.x 745) (.c 0), .adc 64 32 (.x 786) (.x 747) (.c 0),
  .adc 64 32 (.x 788) (.x 749) (.c 0), .adc 64 32 (.x 790) (.x 751) (.c 0), .adc 64 32 (.x 792) (.x 753) (.c 0),
  .adc 64 32 (.x 794) (.x 755) (.c 0), .adc 64 32 (.x 796) (.x 757) (.c 0), .adc 64 32 (.x 798) (.x 759) (.c 0),
  .adc 64 32 (.x 800) (.x 761) (.c 0), .adc 64 32 (.x 802) (.x 763) (.c 0), .adc 64 32 (.x 804) (.x 765) (.x 771),
  .adc 64 32 (.x 806) (.x 767) (.x 772), .set (.add 32 (.x 808) (.x 768)), .mulx 32 (.x 6) (.b 15), .mulx 32 (.x 6) (.b 14),
  .mulx 32 (.x 6) (.b 13), .mulx 32 (.x 6) (.b 12), .mulx 32 (.x 6) (.b 11), .mulx 32 (.x 6) (.b 10), .mulx 32 (.x 6) (.b 9),
  .mulx 32 (.x 6) (.b 8), .mulx 32 (.x 6) (.b 7), .mulx 32 (.x 6) (.b 6), .mulx 32 (.x 6) (.b 5), .mulx 32 (.x 6) (.b 4),
  .mulx 32 (.x 6) (.b 3), .mulx 32 (.x 6) (.b 2), .mulx 32 (.x 6) (.b 1), .mulx 32 (.x 6) (.b 0), .adc 64 32 (.c 0) (.x 841) (.x 838),
  .adc 64 32 (.x 843) (.x 839) (.x 836), .adc 64 32 (.x 845) (.x 837) (.x 834), .adc 64 32 (.x 847) (.x 835) (.x 832),
  .adc 64 32 (.x 849) (.x 833) (.x 830), .adc 64 32 (.x 851) (.x 831) (.x 828), .adc 64 32 (.x 853) (.x 829) (.x 826),
  .adc 64 32 (.x 855) (.x 827) (.x 824), .adc 64 32 (.x 857) (.x 825) (.x 822), .adc 64 32 (.x 859) (.x 823) (.x 820),
  .adc 64 32 (.x 861) (.x 821) (.x 818), .adc 64 32 (.x 863) (.x 819) (.x 816), .adc 64 32 (.x 865) (.x 817) (.x 814),
  .adc 64 32 (.x 867) (.x 815) (.x 812), .adc 64 32 (.x 869) (.x 813) (.x 810), .set (.add 32 (.x 871) (.x 811)),
  .adc 64 32 (.c 0) (.x 777) (.x 840), .adc 64 32 (.x 874) (.x 779) (.x 842), .adc 64 32 (.x 876) (.x 781) (.x 844),
  .adc 64 32 (.x 878) (.x 783) (.x 846), .adc 64 32 (.x 880) (.x 785) (.x 848), .adc 64 32 (.x 882) (.x 787) (.x 850),
  .adc 64 32 (.x 884) (.x 789) (.x 852), .adc 64 32 (.x 886) (.x 791) (.x 854), .adc 64 32 (.x 888) (.x 793) (.x 856),
  .adc 64 32 (.x 890) (.x 795) (.x 858), .adc 64 32 (.x 892) (.x 797) (.x 860), .adc 64 32 (.x 894) (.x 799) (.x 862),
  .adc 64 32 (.x 896) (.x 801) (.x 864), .adc 64 32 (.x 898) (.x 803) (.x 866), .adc 64 32 (.x 900) (.x 805) (.x 868),
  .adc 64 32 (.x 902) (.x 807) (.x 870), .adc 64 32 (.x 904) (.x 809) (.x 872), .mulx 32 (.x 873) (.c 0x24e6a171),
  .mulx 32 (.x 907) (.c 0x80000000), .mulx 32 (.x 907) (.c 0x6f), .adc 64 32 (.c 0) (.x 873) (.x 911),
  .adc 64 32 (.x 914) (.x 875) (.x 912), .adc 64 32 (.x 916) (.x 877) (.c 0), .adc 64 32 (.x 918) (.x 879) (.c 0),
  .adc 64 32 (.x 920) (.x 881) (.c 0), .adc 64 32 (.x 922) (.x 883) (.c 0), .adc 64 32 (.x 924) (.x 885) (.c 0),
  .adc 64 32 (.x 926) (.x 887) (.c 0), .adc 64 32 (.x 928) (.x 889) (.c 0), .adc 64 32 (.x 930) (.x 891) (.c 0),
  .adc 64 32 (.x 932) (.x 893) (.c 0), .adc 64 32 (.x 934) (.x 895) (.c 0), .adc 64 32 (.x 936) (.x 897) (.c 0),
  .adc 64 32 (.x 938) (.x 899) (.c 0), .adc 64 32 (.x 940) (.x 901) (.c 0), .adc 64 32 (.x 942) (.x 903) (.x 909),
  .adc 64 32 (.x 944) (.x 905) (.x 910), .set (.add 32 (.x 946) (.x 906)), .mulx 32 (.x 7) (.b 15), .mulx 32 (.x 7) (.b 14),
  .mulx 32 (.x 7) (.b 13), .mulx 32 (.x 7) (.b 12), .mulx 32 (.x 7) (.b 11), .mulx 32 (.x 7) (.b 10), .mulx 32 (.x 7) (.b 9),
  .mulx 32 (.x 7) (.b 8), .mulx 32 (.x 7) (.b 7), .mulx 32 (.x 7) (.b 6), .mulx 32 (.x 7) (.b 5), .mulx 32 (.x 7) (.b 4),
  .mulx 32 (.x 7) (.b 3), .mulx 32 (.x 7) (.b 2), .mulx 32 (.x 7) (.b 1), .mulx 32 (.x 7) (.b 0), .adc 64 32 (.c 0) (.x 979) (.x 976),
  .adc 64 32 (.x 981) (.x 977) (.x 974), .adc 64 32 (.x 983) (.x 975) (.x 972), .adc 64 32 (.x 985) (.x 973) (.x 970),
  .adc 64 32 (.x 987) (.x 971) (.x 968), .adc 64 32 (.x 989) (.x 969) (.x 966), .adc 64 32 (.x 991) (.x 967) (.x 964),
  .adc 64 32 (.x 993) (.x 965) (.x 962), .adc 64 32 (.x 995) (.x 963) (.x 960), .adc 64 32 (.x 997) (.x 961) (.x 958),
  .adc 64 32 (.x 999) (.x 959) (.x 956), .adc 64 32 (.x 1001) (.x 957) (.x 954), .adc 64 32 (.x 1003) (.x 955) (.x 952),
  .adc 64 32 (.x 1005) (.x 953) (.x 950), .adc 64 32 (.x 1007) (.x 951) (.x 948), .set (.add 32 (.x 1009) (.x 949)),
  .adc 64 32 (.c 0) (.x 915) (.x 978), .adc 64 32 (.x 1012) (.x 917) (.x 980), .adc 64 32 (.x 1014) (.x 919) (.x 982),
  .adc 64 32 (.x 1016) (.x 921) (.x 984), .adc 64 32 (.x 1018) (.x 923) (.x 986), .adc 64 32 (.x 1020) (.x 925) (.x 988),
  .adc 64 32 (.x 1022) (.x 927) (.x 990), .adc 64 32 (.x 1024) (.x 929) (.x 992), .adc 64 32 (.x 1026) (.x 931) (.x 994),
  .adc 64 32 (.x 1028) (.x 933) (.x 996), .adc 64 32 (.x 1030) (.x 935) (.x 998), .adc 64 32 (.x 1032) (.x 937) (.x 1000),
  .adc 64 32 (.x 1034) (.x 939) (.x 1002), .adc 64 32 (.x 1036) (.x 941) (.x 1004), .adc 64 32 (.x 1038) (.x 943) (.x 1006),
  .adc 64 32 (.x 1040) (.x 945) (.x 1008), .adc 64 32 (.x 1042) (.x 947) (.x 1010), .mulx 32 (.x 1011) (.c 0x24e6a171),
  .mulx 32 (.x 1045) (.c 0x80000000), .mulx 32 (.x 1045) (.c 0x6f), .adc 64 32 (.c 0) (.x 1011) (.x 1049),
  .adc 64 32 (.x 1052) (.x 1013) (.x 1050), .adc 64 32 (.x 1054) (.x 1015) (.c 0), .adc 64 32 (.x 1056) (.x 1017) (.c 0),
  .adc 64 32 (.x 1058) (.x 1019) (.c 0), .adc 64 32 (.x 1060) (.x 1021) (.c 0), .adc 64 32 (.x 1062) (.x 1023) (.c 0),
  .adc 64 32 (.x 1064) (.x 1025) (.c 0), .adc 64 32 (.x 1066) (.x 1027) (.c 0), .adc 64 32 (.x 1068) (.x 1029) (.c 0),
  .adc 64 32 (.x 1070) (.x 1031) (.c 0), .adc 64 32 (.x 1072) (.x 1033) (.c 0), .adc 64 32 (.x 1074) (.x 1035) (.c 0),
  .adc 64 32 (.x 1076) (.x 1037) (.c 0), .adc 64 32 (.x 1078) (.x 1039) (.c 0), .adc 64 32 (.x 1080) (.x 1041) (.x 1047),
  .adc 64 32 (.x 1082) (.x 1043) (.x 1048), .set (.add 32 (.x 1084) (.x 1044)), .mulx 32 (.x 8) (.b 15), .mulx 32 (.x 8) (.b 14),
  .mulx 32 (.x 8) (.b 13), .mulx 32 (.x 8) (.b 12), .mulx 32 (.x 8) (.b 11), .mulx 32 (.x 8) (.b 10), .mulx 32 (.x 8) (.b 9),
  .mulx 32 (.x 8) (.b 8), .mulx 32 (.x 8) (.b 7), .mulx 32 (.x 8) (.b 6), .mulx 32 (.x 8) (.b 5), .mulx 32 (.x 8) (.b 4),
  .mulx 32 (.x 8) (.b 3), .mulx 32 (.x 8) (.b 2), .mulx 32 (.x 8) (.b 1), .mulx 32 (.x 8) (.b 0), .adc 64 32 (.c 0) (.x 1117) (.x 1114),
  .adc 64 32 (.x 1119) (.x 1115) (.x 1112), .adc 64 32 (.x 1121) (.x 1113) (.x 1110), .adc 64 32 (.x 1123) (.x 1111) (.x 1108),
  .adc 64 32 (.x 1125) (.x 1109) (.x 1106), .adc 64 32 (.x 1127) (.x 1107) (.x 1104), .adc 64 32 (.x 1129) (.x 1105) (.x 1102),
  .adc 64 32 (.x 1131) (.x 1103) (.x 1100), .adc 64 32 (.x 1133) (.x 1101) (.x 1098), .adc 64 32 (.x 1135) (.x 1099) (.x 1096),
  .adc 64 32 (.x 1137) (.x 1097) (.x 1094), .adc 64 32 (.x 1139) (.x 1095) (.x 1092), .adc 64 32 (.x 1141) (.x 1093) (.x 1090),
  .adc 64 32 (.x 1143) (.x 1091) (.x 1088), .adc 64 32 (.x 1145) (.x 1089) (.x 1086), .set (.add 32 (.x 1147) (.x 1087)),
  .adc 64 32 (.c 0) (.x 1053) (.x 1116), .adc 64 32 (.x 1150) (.x 1055) (.x 1118), .adc 64 32 (.x 1152) (.x 1057) (.x 1120),
  .adc 64 32 (.x 1154) (.x 1059) (.x 1122), .adc 64 32 (.x 1156) (.x 1061) (.x 1124), .adc 64 32 (.x 1158) (.x 1063) (.x 1126),
  .adc 64 32 (.x 1160) (.x 1065) (.x 1128), .adc 64 32 (.x 1162) (.x 1067) (.x 1130), .adc 64 32 (.x 1164) (.x 1069) (.x 1132),
  .adc 64 32 (.x 1166) (.x 1071) (.x 1134), .adc 64 32 (.x 1168) (.x 1073) (.x 1136), .adc 64 32 (.x 1170) (.x 1075) (.x 1138),
  .adc 64 32 (.x 1172) (.x 1077) (.x 1140), .adc 64 32 (.x 1174) (.x 1079) (.x 1142), .adc 64 32 (.x 1176) (.x 1081) (.x 1144),
  .adc 64 32 (.x 1178) (.x 1083) (.x 1146), .adc 64 32 (.x 1180) (.x 1085) (.x 1148), .mulx 32 (.x 1149) (.c 0x24e6a171),
  .mulx 32 (.x 1183) (.c 0x80000000), .mulx 32 (.x 1183) (.c 0x6f), .adc 64 32 (.c 0) (.x 1149) (.x 1187),
  .adc 64 32 (.x 1190) (.x 1151) (.x 1188), .adc 64 32 (.x 1192) (.x 1153) (.c 0), .adc 64 32 (.x 1194) (.x 1155) (.c 0),
  .adc 64 32 (.x 1196) (.x 1157) (.c 0), .adc 64 32 (.x 1198) (.x 1159) (.c 0), .adc 64 32 (.x 1200) (.x 1161) (.c 0),
  .adc 64 32 (.x 1202) (.x 1163) (.c 0), .adc 64 32 (.x 1204) (.x 1165) (.c 0), .adc 64 32 (.x 1206) (.x 1167) (.c 0),
  .adc 64 32 (.x 1208) (.x 1169) (.c 0), .adc 64 32 (.x 1210) (.x 1171) (.c 0), .adc 64 32 (.x 1212) (.x 1173) (.c 0),
  .adc 64 32 (.x 1214) (.x 1175) (.c 0), .adc 64 32 (.x 1216) (.x 1177) (.c 0), .adc 64 32 (.x 1218) (.x 1179) (.x 1185),
  .adc 64 32 (.x 1220) (.x 1181) (.x 1186), .set (.add 32 (.x 1222) (.x 1182)), .mulx 32 (.x 9) (.b 15), .mulx 32 (.x 9) (.b 14),
  .mulx 32 (.x 9) (.b 13), .mulx 32 (.x 9) (.b 12), .mulx 32 (.x 9) (.b 11), .mulx 32 (.x 9) (.b 10), .mulx 32 (.x 9) (.b 9),
  .mulx 32 (.x 9) (.b 8), .mulx 32 (.x 9) (.b 7), .mulx 32 (.x 9) (.b 6), .mulx 32 (.x 9) (.b 5), .mulx 32 (.x 9) (.b 4),
  .mulx 32 (.x 9) (.b 3), .mulx 32 (.x 9) (.b 2), .mulx 32 (.x 9) (.b 1), .mulx 32 (.x 9) (.b 0), .adc 64 32 (.c 0) (.x 1255) (.x 1252),
  .adc 64 32 (.x 1257) (.x 1253) (.x 1250), .adc 64 32 (.x 1259) (.x 1251) (.x 1248), .adc 64 32 (.x 1261) (.x 1249) (.x 1246),
  .adc 64 32 (.x 1263) (.x 1247) (.x 1244), .adc 64 32 (.x 1265) (.x 1245) (.x 1242), .adc 64 32 (.x 1267) (.x 1243) (.x 1240),
  .adc 64 32 (.x 1269) (.x 1241) (.x 1238), .adc 64 32 (.x 1271) (.x 1239) (.x 1236), .adc 64 32 (.x 1273) (.x 1237) (.x 1234),
  .adc 64 32 (.x 1275) (.x 1235) (.x 1232), .adc 64 32 (.x 1277) (.x 1233) (.x 1230), .adc 64 32 (.x 1279) (.x 1231) (.x 1228),
  .adc 64 32 (.x 1281) (.x 1229) (.x 1226), .adc 64 32 (.x 1283) (.x 1227) (.x 1224), .set (.add 32 (.x 1285) (.x 1225)),
  .adc 64 32 (.c 0) (.x 1191) (.x 1254), .adc 64 32 (.x 1288) (.x 1193) (.x 1256), .adc 64 32 (.x 1290) (.x 1195) (.x 1258),
  .adc 64 32 (.x 1292) (.x 1197) (.x 1260), .adc 64 32 (.x 1294) (.x 1199) (.x 1262), .adc 64 32 (.x 1296) (.x 1201) (.x 1264),
  .adc 64 32 (.x 1298) (.x 1203) (.x 1266), .adc 64 32 (.x 1300) (.x 1205) (.x 1268), .adc 64 32 (.x 1302) (.x 1207) (.x 1270),
  .adc 64 32 (.x 1304) (.x 1209) (.x 1272), .adc 64 32 (.x 1306) (.x 1211) (.x 1274), .adc 64 32 (.x 1308) (.x 1213) (.x 1276),
  .adc 64 32 (.x 1310) (.x 1215) (.x 1278), .adc 64 32 (.x 1312) (.x 1217) (.x 1280), .adc 64 32 (.x 1314) (.x 1219) (.x 1282),
  .adc 64 32 (.x 1316) (.x 1221) (.x 1284), .adc 64 32 (.x 1318) (.x 1223) (.x 1286), .mulx 32 (.x 1287) (.c 0x24e6a171),
  .mulx 32 (.x 1321) (.c 0x80000000), .mulx 32 (.x 1321) (.c 0x6f), .adc 64 32 (.c 0) (.x 1287) (.x 1325),
  .adc 64 32 (.x 1328) (.x 1289) (.x 1326), .adc 64 32 (.x 1330) (.x 1291) (.c 0), .adc 64 32 (.x 1332) (.x 1293) (.c 0),
  .adc 64 32 (.x 1334) (.x 1295) (.c 0), .adc 64 32 (.x 1336) (.x 1297) (.c 0), .adc 64 32 (.x 1338) (.x 1299) (.c 0),
  .adc 64 32 (.x 1340) (.x 1301) (.c 0), .adc 64 32 (.x 1342) (.x 1303) (.c 0), .adc 64 32 (.x 1344) (.x 1305) (.c 0),
  .adc 64 32 (.x 1346) (.x 1307) (.c 0), .adc 64 32 (.x 1348) (.x 1309) (.c 0), .adc 64 32 (.x 1350) (.x 1311) (.c 0),
  .adc 64 32 (.x 1352) (.x 1313) (.c 0), .adc 64 32 (.x 1354) (.x 1315) (.c 0), .adc 64 32 (.x 1356) (.x 1317) (.x 1323),
  .adc 64 32 (.x 1358) (.x 1319) (.x 1324), .set (.add 32 (.x 1360) (.x 1320)), .mulx 32 (.x 10) (.b 15), .mulx 32 (.x 10) (.b 14),
  .mulx 32 (.x 10) (.b 13), .mulx 32 (.x 10) (.b 12), .mulx 32 (.x 10) (.b 11), .mulx 32 (.x 10) (.b 10), .mulx 32 (.x 10) (.b 9),
  .mulx 32 (.x 10) (.b 8), .mulx 32 (.x 10) (.b 7), .mulx 32 (.x 10) (.b 6), .mulx 32 (.x 10) (.b 5), .mulx 32 (.x 10) (.b 4),
  .mulx 32 (.x 10) (.b 3), .mulx 32 (.x 10) (.b 2), .mulx 32 (.x 10) (.b 1), .mulx 32 (.x 10) (.b 0), .adc 64 32 (.c 0) (.x 1393) (.x 1390),
  .adc 64 32 (.x 1395) (.x 1391) (.x 1388), .adc 64 32 (.x 1397) (.x 1389) (.x 1386), .adc 64 32 (.x 1399) (.x 1387) (.x 1384),
  .adc 64 32 (.x 1401) (.x 1385) (.x 1382), .adc 64 32 (.x 1403) (.x 1383) (.x 1380), .adc 64 32 (.x 1405) (.x 1381) (.x 1378),
  .adc 64 32 (.x 1407) (.x 1379) (.x 1376), .adc 64 32 (.x 1409) (.x 1377) (.x 1374), .adc 64 32 (.x 1411) (.x 1375) (.x 1372),
  .adc 64 32 (.x 1413) (.x 1373) (.x 1370), .adc 64 32 (.x 1415) (.x 1371) (.x 1368), .adc 64 32 (.x 1417) (.x 1369) (.x 1366),
  .adc 64 32 (.x 1419) (.x 1367) (.x 1364), .adc 64 32 (.x 1421) (.x 1365) (.x 1362), .set (.add 32 (.x 1423) (.x 1363)),
  .adc 64 32 (.c 0) (.x 1329) (.x 1392), .adc 64 32 (.x 1426) (.x 1331) (.x 1394), .adc 64 32 (.x 1428) (.x 1333) (.x 1396),
  .adc 64 32 (.x 1430) (.x 1335) (.x 1398), .adc 64 32 (.x 1432) (.x 1337) (.x 1400), .adc 64 32 (.x 1434) (.x 1339) (.x 1402),
  .adc 64 32 (.x 1436) (.x 1341) (.x 1404), .adc 64 32 (.x 1438) (.x 1343) (.x 1406), .adc 64 32 (.x 1440) (.x 1345) (.x 1408),
  .adc 64 32 (.x 1442) (.x 1347) (.x 1410), .adc 64 32 (.x 1444) (.x 1349) (.x 1412), .adc 64 32 (.x 1446) (.x 1351) (.x 1414),
  .adc 64 32 (.x 1448) (.x 1353) (.x 1416), .adc 64 32 (.x 1450) (.x 1355) (.x 1418), .adc 64 32 (.x 1452) (.x 1357) (.x 1420),
  .adc 64 32 (.x 1454) (.x 1359) (.x 1422), .adc 64 32 (.x 1456) (.x 1361) (.x 1424), .mulx 32 (.x 1425) (.c 0x24e6a171),
  .mulx 32 (.x 1459) (.c 0x80000000), .mulx 32 (.x 1459) (.c 0x6f), .adc 64 32 (.c 0) (.x 1425) (.x 1463),
  .adc 64 32 (.x 1466) (.x 1427) (.x 1464), .adc 64 32 (.x 1468) (.x 1429) (.c 0), .adc 64 32 (.x 1470) (.x 1431) (.c 0),
  .adc 64 32 (.x 1472) (.x 1433) (.c 0), .adc 64 32 (.x 1474) (.x 1435) (.c 0), .adc 64 32 (.x 1476) (.x 1437) (.c 0),
  .adc 64 32 (.x 1478) (.x 1439) (.c 0), .adc 64 32 (.x 1480) (.x 1441) (.c 0), .adc 64 32 (.x 1482) (.x 1443) (.c 0),
  .adc 64 32 (.x 1484) (.x 1445) (.c 0), .adc 64 32 (.x 1486) (.x 1447) (.c 0), .adc 64 32 (.x 1488) (.x 1449) (.c 0),
  .adc 64 32 (.x 1490) (.x 1451) (.c 0), .adc 64 32 (.x 1492) (.x 1453) (.c 0), .adc 64 32 (.x 1494) (.x 1455) (.x 1461),
  .adc 64 32 (.x 1496) (.x 1457) (.x 1462), .set (.add 32 (.x 1498) (.x 1458)), .mulx 32 (.x 11) (.b 15), .mulx 32 (.x 11) (.b 14),
  .mulx 32 (.x 11) (.b 13), .mulx 32 (.x 11) (.b 12), .mulx 32 (.x 11) (.b 11), .mulx 32 (.x 11) (.b 10), .mulx 32 (.x 11) (.b 9),
  .mulx 32 (.x 11) (.b 8), .mulx 32 (.x 11) (.b 7), .mulx 32 (.x 11) (.b 6), .mulx 32 (.x 11) (.b 5), .mulx 32 (.x 11) (.b 4),
  .mulx 32 (.x 11) (.b 3), .mulx 32 (.x 11) (.b 2), .mulx 32 (.x 11) (.b 1), .mulx 32 (.x 11) (.b 0), .adc 64 32 (.c 0) (.x 1531) (.x 1528),
  .adc 64 32 (.x 1533) (.x 1529) (.x 1526), .adc 64 32 (.x 1535) (.x 1527) (.x 1524), .adc 64 32 (.x 1537) (.x 1525) (.x 1522),
  .adc 64 32 (.x 1539) (.x 1523) (.x 1520), .adc 64 32 (.x 1541) (.x 1521) (.x 1518), .adc 64 32 (.x 1543) (.x 1519) (.x 1516),
  .adc 64 32 (.x 1545) (.x 1517) (.x 1514), .adc 64 32 (.x 1547) (.x 1515) (.x 1512), .adc 64 32 (.x 1549) (.x 1513) (.x 1510),
  .adc 64 32 (.x 1551) (.x 1511) (.x 1508), .adc 64 32 (.x 1553) (.x 1509) (.x 1506), .adc 64 32 (.x 1555) (.x 1507) (.x 1504),
  .adc 64 32 (.x 1557) (.x 1505) (.x 1502), .adc 64 32 (.x 1559) (.x 1503) (.x 1500), .set (.add 32 (.x 1561) (.x 1501)),
  .adc 64 32 (.c 0) (.x 1467) (.x 1530), .adc 64 32 (.x 1564) (.x 1469) (.x 1532), .adc 64 32 (.x 1566) (.x 1471) (.x 1534),
  .adc 64 32 (.x 1568) (.x 1473) (.x 1536), .adc 64 32 (.x 1570) (.x 1475) (.x 1538), .adc 64 32 (.x 1572) (.x 1477) (.x 1540),
  .adc 64 32 (.x 1574) (.x 1479) (.x 1542), .adc 64 32 (.x 1576) (.x 1481) (.x 1544), .adc 64 32 (.x 1578) (.x 1483) (.x 1546),
  .adc 64 32 (.x 1580) (.x 1485) (.x 1548), .adc 64 32 (.x 1582) (.x 1487) (.x 1550), .adc 64 32 (.x 1584) (.x 1489) (.x 1552),
  .adc 64 32 (.x 1586) (.x 1491) (.x 1554), .adc 64 32 (.x 1588) (.x 1493) (.x 1556), .adc 64 32 (.x 1590) (.x 1495) (.x 1558),
  .adc 64 32 (.x 1592) (.x 1497) (.x 1560), .adc 64 32 (.x 1594) (.x 1499) (.x 1562), .mulx 32 (.x 1563) (.c 0x24e6a171),
  .mulx 32 (.x 1597) (.c 0x80000000), .mulx 32 (.x 1597) (.c 0x6f), .adc 64 32 (.c 0) (.x 1563) (.x 1601),
  .adc 64 32 (.x 1604) (.x 1565) (.x 1602), .adc 64 32 (.x 1606) (.x 1567) (.c 0), .adc 64 32 (.x 1608) (.x 1569) (.c 0),
  .adc 64 32 (.x 1610) (.x 1571) (.c 0), .adc 64 32 (.x 1612) (.x 1573) (.c 0), .adc 64 32 (.x 1614) (.x 1575) (.c 0),
  .adc 64 32 (.x 1616) (.x 1577) (.c 0), .adc 64 32 (.x 1618) (.x 1579) (.c 0), .adc 64 32 (.x 1620) (.x 1581) (.c 0),
  .adc 64 32 (.x 1622) (.x 1583) (.c 0), .adc 64 32 (.x 1624) (.x 1585) (.c 0), .adc 64 32 (.x 1626) (.x 1587) (.c 0),
  .adc 64 32 (.x 1628) (.x 1589) (.c 0), .adc 64 32 (.x 1630) (.x 1591) (.c 0), .adc 64 32 (.x 1632) (.x 1593) (.x 1599),
  .adc 64 32 (.x 1634) (.x 1595) (.x 1600), .set (.add 32 (.x 1636) (.x 1596)), .mulx 32 (.x 12) (.b 15), .mulx 32 (.x 12) (.b 14),
  .mulx 32 (.x 12) (.b 13), .mulx 32 (.x 12) (.b 12), .mulx 32 (.x 12) (.b 11), .mulx 32 (.x 12) (.b 10), .mulx 32 (.x 12) (.b 9),
  .mulx 32 (.x 12) (.b 8), .mulx 32 (.x 12) (.b 7), .mulx 32 (.x 12) (.b 6), .mulx 32 (.x 12) (.b 5), .mulx 32 (.x 12) (.b 4),
  .mulx 32 (.x 12) (.b 3), .mulx 32 (.x 12) (.b 2), .mulx 32 (.x 12) (.b 1), .mulx 32 (.x 12) (.b 0), .adc 64 32 (.c 0) (.x 1669) (.x 1666),
  .adc 64 32 (.x 1671) (.x 1667) (.x 1664), .adc 64 32 (.x 1673) (.x 1665) (.x 1662), .adc 64 32 (.x 1675) (.x 1663) (.x 1660),
  .adc 64 32 (.x 1677) (.x 1661) (.x 1658), .adc 64 32 (.x 1679) (.x 1659) (.x 1656), .adc 64 32 (.x 1681) (.x 1657) (.x 1654),
  .adc 64 32 (.x 1683) (.x 1655) (.x 1652), .adc 64 32 (.x 1685) (.x 1653) (.x 1650), .adc 64 32 (.x 1687) (.x 1651) (.x 1648),
  .adc 64 32 (.x 1689) (.x 1649) (.x 1646), .adc 64 32 (.x 1691) (.x 1647) (.x 1644), .adc 64 32 (.x 1693) (.x 1645) (.x 1642),
  .adc 64 32 (.x 1695) (.x 1643) (.x 1640), .adc 64 32 (.x 1697) (.x 1641) (.x 1638), .set (.add 32 (.x 1699) (.x 1639)),
  .adc 64 32 (.c 0) (.x 1605) (.x 1668), .adc 64 32 (.x 1702) (.x 1607) (.x 1670), .adc 64 32 (.x 1704) (.x 1609) (.x 1672),
  .adc 64 32 (.x 1706) (.x 1611) (.x 1674), .adc 64 32 (.x 1708) (.x 1613) (.x 1676), .adc 64 32 (.x 1710) (.x 1615) (.x 1678),
  .adc 64 32 (.x 1712) (.x 1617) (.x 1680), .adc 64 32 (.x 1714) (.x 1619) (.x 1682), .adc 64 32 (.x 1716) (.x 1621) (.x 1684),
  .adc 64 32 (.x 1718) (.x 1623) (.x 1686), .adc 64 32 (.x 1720) (.x 1625) (.x 1688), .adc 64 32 (.x 1722) (.x 1627) (.x 1690),
  .adc 64 32 (.x 1724) (.x 1629) (.x 1692), .adc 64 32 (.x 1726) (.x 1631) (.x 1694), .adc 64 32 (.x 1728) (.x 1633) (.x 1696),
  .adc 64 32 (.x 1730) (.x 1635) (.x 1698), .adc 64 32 (.x 1732) (.x 1637) (.x 1700), .mulx 32 (.x 1701) (.c 0x24e6a171),
  .mulx 32 (.x 1735) (.c 0x80000000), .mulx 32 (.x 1735) (.c 0x6f), .adc 64 32 (.c 0) (.x 1701) (.x 1739),
  .adc 64 32 (.x 1742) (.x 1703) (.x 1740), .adc 64 32 (.x 1744) (.x 1705) (.c 0), .adc 64 32 (.x 1746) (.x 1707) (.c 0),
  .adc 64 32 (.x 1748) (.x 1709) (.c 0), .adc 64 32 (.x 1750) (.x 1711) (.c 0), .adc 64 32 (.x 1752) (.x 1713) (.c 0),
  .adc 64 32 (.x 1754) (.x 1715) (.c 0), .adc 64 32 (.x 1756) (.x 1717) (.c 0), .adc 64 32 (.x 1758) (.x 1719) (.c 0),
  .adc 64 32 (.x 1760) (.x 1721) (.c 0), .adc 64 32 (.x 1762) (.x 1723) (.c 0), .adc 64 32 (.x 1764) (.x 1725) (.c 0),
  .adc 64 32 (.x 1766) (.x 1727) (.c 0), .adc 64 32 (.x 1768) (.x 1729) (.c 0), .adc 64 32 (.x 1770) (.x 1731) (.x 1737),
  .adc 64 32 (.x 1772) (.x 1733) (.x 1738), .set (.add 32 (.x 1774) (.x 1734)), .mulx 32 (.x 13) (.b 15), .mulx 32 (.x 13) (.b 14),
  .mulx 32 (.x 13) (.b 13), .mulx 32 (.x 13) (.b 12), .mulx 32 (.x 13) (.b 11), .mulx 32 (.x 13) (.b 10), .mulx 32 (.x 13) (.b 9),
  .mulx 32 (.x 13) (.b 8), .mulx 32 (.x 13) (.b 7), .mulx 32 (.x 13) (.b 6), .mulx 32 (.x 13) (.b 5), .mulx 32 (.x 13) (.b 4),
  .mulx 32 (.x 13) (.b 3), .mulx 32 (.x 13) (.b 2), .mulx 32 (.x 13) (.b 1), .mulx 32 (.x 13) (.b 0), .adc 64 32 (.c 0) (.x 1807) (.x 1804),
  .adc 64 32 (.x 1809) (.x 1805) (.x 1802), .adc 64 32 (.x 1811) (.x 1803) (.x 1800), .adc 64 32 (.x 1813) (.x 1801) (.x 1798),
  .adc 64 32 (.x 1815) (.x 1799) (.x 1796), .adc 64 32 (.x 1817) (.x 1797) (.x 1794), .adc 64 32 (.x 1819) (.x 1795) (.x 1792),
  .adc 64 32 (.x 1821) (.x 1793) (.x 1790), .adc 64 32 (.x 1823) (.x 1791) (.x 1788), .adc 64 32 (.x 1825) (.x 1789) (.x 1786),
  .adc 64 32 (.x 1827) (.x 1787) (.x 1784), .adc 64 32 (.x 1829) (.x 1785) (.x 1782), .adc 64 32 (.x 1831) (.x 1783) (.x 1780),
  .adc 64 32 (.x 1833) (.x 1781) (.x 1778), .adc 64 32 (.x 1835) (.x 1779) (.x 1776), .set (.add 32 (.x 1837) (.x 1777)),
  .adc 64 32 (.c 0) (.x 1743) (.x 1806), .adc 64 32 (.x 1840) (.x 1745) (.x 1808), .adc 64 32 (.x 1842) (.x 1747) (.x 1810),
  .adc 64 32 (.x 1844) (.x 1749) (.x 1812), .adc 64 32 (.x 1846) (.x 1751) (.x 1814), .adc 64 32 (.x 1848) (.x 1753) (.x 1816),
  .adc 64 32 (.x 1850) (.x 1755) (.x 1818), .adc 64 32 (.x 1852) (.x 1757) (.x 1820), .adc 64 32 (.x 1854) (.x 1759) (.x 1822),
  .adc 64 32 (.x 1856) (.x 1761) (.x 1824), .adc 64 32 (.x 1858) (.x 1763) (.x 1826), .adc 64 32 (.x 1860) (.x 1765) (.x 1828),
  .adc 64 32 (.x 1862) (.x 1767) (.x 1830), .adc 64 32 (.x 1864) (.x 1769) (.x 1832), .adc 64 32 (.x 1866) (.x 1771) (.x 1834),
  .adc 64 32 (.x 1868) (.x 1773) (.x 1836), .adc 64 32 (.x 1870) (.x 1775) (.x 1838), .mulx 32 (.x 1839) (.c 0x24e6a171),
  .mulx 32 (.x 1873) (.c 0x80000000), .mulx 32 (.x 1873) (.c 0x6f), .adc 64 32 (.c 0) (.x 1839) (.x 1877),
  .adc 64 32 (.x 1880) (.x 1841) (.x 1878), .adc 64 32 (.x 1882) (.x 1843) (.c 0), .adc 64 32 (.x 1884) (.x 1845) (.c 0),
  .adc 64 32 (.x 1886) (.x 1847) (.c 0), .adc 64 32 (.x 1888) (.x 1849) (.c 0), .adc 64 32 (.x 1890) (.x 1851) (.c 0),
  .adc 64 32 (.x 1892) (.x 1853) (.c 0), .adc 64 32 (.x 1894) (.x 1855) (.c 0), .adc 64 32 (.x 1896) (.x 1857) (.c 0),
  .adc 64 32 (.x 1898) (.x 1859) (.c 0), .adc 64 32 (.x 1900) (.x 1861) (.c 0), .adc 64 32 (.x 1902) (.x 1863) (.c 0),
  .adc 64 32 (.x 1904) (.x 1865) (.c 0), .adc 64 32 (.x 1906) (.x 1867) (.c 0), .adc 64 32 (.x 1908) (.x 1869) (.x 1875),
  .adc 64 32 (.x 1910) (.x 1871) (.x 1876), .set (.add 32 (.x 1912) (.x 1872)), .mulx 32 (.x 14) (.b 15), .mulx 32 (.x 14) (.b 14),
  .mulx 32 (.x 14) (.b 13), .mulx 32 (.x 14) (.b 12), .mulx 32 (.x 14) (.b 11), .mulx 32 (.x 14) (.b 10), .mulx 32 (.x 14) (.b 9),
  .mulx 32 (.x 14) (.b 8), .mulx 32 (.x 14) (.b 7), .mulx 32 (.x 14) (.b 6), .mulx 32 (.x 14) (.b 5), .mulx 32 (.x 14) (.b 4),
  .mulx 32 (.x 14) (.b 3), .mulx 32 (.x 14) (.b 2), .mulx 32 (.x 14) (.b 1), .mulx 32 (.x 14) (.b 0), .adc 64 32 (.c 0) (.x 1945) (.x 1942),
  .adc 64 32 (.x 1947) (.x 1943) (.x 1940), .adc 64 32 (.x 1949) (.x 1941) (.x 1938), .adc 64 32 (.x 1951) (.x 1939) (.x 1936),
  .adc 64 32 (.x 1953) (.x 1937) (.x 1934), .adc 64 32 (.x 1955) (.x 1935) (.x 1932), .adc 64 32 (.x 1957) (.x 1933) (.x 1930),
  .adc 64 32 (.x 1959) (.x 1931) (.x 1928), .adc 64 32 (.x 1961) (.x 1929) (.x 1926), .adc 64 32 (.x 1963) (.x 1927) (.x 1924),
  .adc 64 32 (.x 1965) (.x 1925) (.x 1922), .adc 64 32 (.x 1967) (.x 1923) (.x 1920), .adc 64 32 (.x 1969) (.x 1921) (.x 1918),
  .adc 64 32 (.x 1971) (.x 1919) (.x 1916), .adc 64 32 (.x 1973) (.x 1917) (.x 1914), .set (.add 32 (.x 1975) (.x 1915)),
  .adc 64 32 (.c 0) (.x 1881) (.x 1944), .adc 64 32 (.x 1978) (.x 1883) (.x 1946), .adc 64 32 (.x 1980) (.x 1885) (.x 1948),
  .adc 64 32 (.x 1982) (.x 1887) (.x 1950), .adc 64 32 (.x 1984) (.x 1889) (.x 1952), .adc 64 32 (.x 1986) (.x 1891) (.x 1954),
  .adc 64 32 (.x 1988) (.x 1893) (.x 1956), .adc 64 32 (.x 1990) (.x 1895) (.x 1958), .adc 64 32 (.x 1992) (.x 1897) (.x 1960),
  .adc 64 32 (.x 1994) (.x 1899) (.x 1962), .adc 64 32 (.x 1996) (.x 1901) (.x 1964), .adc 64 32 (.x 1998) (.x 1903) (.x 1966),
  .adc 64 32 (.x 2000) (.x 1905) (.x 1968), .adc 64 32 (.x 2002) (.x 1907) (.x 1970), .adc 64 32 (.x 2004) (.x 1909) (.x 1972),
  .adc 64 32 (.x 2006) (.x 1911) (.x 1974), .adc 64 32 (.x 2008) (.x 1913) (.x 1976), .mulx 32 (.x 1977) (.c 0x24e6a171),
  .mulx 32 (.x 2011) (.c 0x80000000), .mulx 32 (.x 2011) (.c 0x6f), .adc 64 32 (.c 0) (.x 1977) (.x 2015),
  .adc 64 32 (.x 2018) (.x 1979) (.x 2016), .adc 64 32 (.x 2020) (.x 1981) (.c 0), .adc 64 32 (.x 2022) (.x 1983) (.c 0),
  .adc 64 32 (.x 2024) (.x 1985) (.c 0), .adc 64 32 (.x 2026) (.x 1987) (.c 0), .adc 64 32 (.x 2028) (.x 1989) (.c 0),
  .adc 64 32 (.x 2030) (.x 1991) (.c 0), .adc 64 32 (.x 2032) (.x 1993) (.c 0), .adc 64 32 (.x 2034) (.x 1995) (.c 0),
  .adc 64 32 (.x 2036) (.x 1997) (.c 0), .adc 64 32 (.x 2038) (.x 1999) (.c 0), .adc 64 32 (.x 2040) (.x 2001) (.c 0),
  .adc 64 32 (.x 2042) (.x 2003) (.c 0), .adc 64 32 (.x 2044) (.x 2005) (.c 0), .adc 64 32 (.x 2046) (.x 2007) (.x 2013),
  .adc 64 32 (.x 2048) (.x 2009) (.x 2014), .set (.add 32 (.x 2050) (.x 2010)), .mulx 32 (.x 15) (.b 15), .mulx 32 (.x 15) (.b 14),
  .mulx 32 (.x 15) (.b 13), .mulx 32 (.x 15) (.b 12), .mulx 32 (.x 15) (.b 11), .mulx 32 (.x 15) (.b 10), .mulx 32 (.x 15) (.b 9),
  .mulx 32 (.x 15) (.b 8), .mulx 32 (.x 15) (.b 7), .mulx 32 (.x 15) (.b 6), .mulx 32 (.x 15) (.b 5), .mulx 32 (.x 15) (.b 4),
  .mulx 32 (.x 15) (.b 3), .mulx 32 (.x 15) (.b 2), .mulx 32 (.x 15) (.b 1), .mulx 32 (.x 15) (.b 0), .adc 64 32 (.c 0) (.x 2083) (.x 2080),
  .adc 64 32 (.x 2085) (.x 2081) (.x 2078), .adc 64 32 (.x 2087) (.x 2079) (.x 2076), .adc 64 32 (.x 2089) (.x 2077) (.x 2074),
  .adc 64 32 (.x 2091) (.x 2075) (.x 2072), .adc 64 32 (.x 2093) (.x 2073) (.x 2070), .adc 64 32 (.x 2095) (.x 2071) (.x 2068),
  .adc 64 32 (.x 2097) (.x 2069) (.x 2066), .adc 64 32 (.x 2099) (.x 2067) (.x 2064), .adc 64 32 (.x 2101) (.x 2065) (.x 2062),
  .adc 64 32 (.x 2103) (.x 2063) (.x 2060), .adc 64 32 (.x 2105) (.x 2061) (.x 2058), .adc 64 32 (.x 2107) (.x 2059) (.x 2056),
  .adc 64 32 (.x 2109) (.x 2057) (.x 2054), .adc 64 32 (.x 2111) (.x 2055) (.x 2052), .set (.add 32 (.x 2113) (.x 2053)),
  .adc 64 32 (.c 0) (.x 2019) (.x 2082), .adc 64 32 (.x 2116) (.x 2021) (.x 2084), .adc 64 32 (.x 2118) (.x 2023) (.x 2086),
  .adc 64 32 (.x 2120) (.x 2025) (.x 2088), .adc 64 32 (.x 2122) (.x 2027) (.x 2090), .adc 64 32 (.x 2124) (.x 2029) (.x 2092),
  .adc 64 32 (.x 2126) (.x 2031) (.x 2094), .adc 64 32 (.x 2128) (.x 2033) (.x 2096), .adc 64 32 (.x 2130) (.x 2035) (.x 2098),
  .adc 64 32 (.x 2132) (.x 2037) (.x 2100), .adc 64 32 (.x 2134) (.x 2039) (.x 2102), .adc 64 32 (.x 2136) (.x 2041) (.x 2104),
  .adc 64 32 (.x 2138) (.x 2043) (.x 2106), .adc 64 32 (.x 2140) (.x 2045) (.x 2108), .adc 64 32 (.x 2142) (.x 2047) (.x 2110),
  .adc 64 32 (.x 2144) (.x 2049) (.x 2112), .adc 64 32 (.x 2146) (.x 2051) (.x 2114), .mulx 32 (.x 2115) (.c 0x24e6a171),
  .mulx 32 (.x 2149) (.c 0x80000000), .mulx 32 (.x 2149) (.c 0x6f), .adc 64 32 (.c 0) (.x 2115) (.x 2153),
  .adc 64 32 (.x 2156) (.x 2117) (.x 2154), .adc 64 32 (.x 2158) (.x 2119) (.c 0), .adc 64 32 (.x 2160) (.x 2121) (.c 0),
  .adc 64 32 (.x 2162) (.x 2123) (.c 0), .adc 64 32 (.x 2164) (.x 2125) (.c 0), .adc 64 32 (.x 2166) (.x 2127) (.c 0),
  .adc 64 32 (.x 2168) (.x 2129) (.c 0), .adc 64 32 (.x 2170) (.x 2131) (.c 0), .adc 64 32 (.x 2172) (.x 2133) (.c 0),
  .adc 64 32 (.x 2174) (.x 2135) (.c 0), .adc 64 32 (.x 2176) (.x 2137) (.c 0), .adc 64 32 (.x 2178) (.x 2139) (.c 0),
  .adc 64 32 (.x 2180) (.x 2141) (.c 0), .adc 64 32 (.x 2182) (.x 2143) (.c 0), .adc 64 32 (.x 2184) (.x 2145) (.x 2151),
  .adc 64 32 (.x 2186) (.x 2147) (.x 2152), .set (.add 32 (.x 2188) (.x 2148)), .sbb 64 32 (.c 0) (.x 2157) (.c 0x6f),
  .sbb 64 32 (.x 2191) (.x 2159) (.c 0), .sbb 64 32 (.x 2193) (.x 2161) (.c 0), .sbb 64 32 (.x 2195) (.x 2163) (.c 0),
  .sbb 64 32 (.x 2197) (.x 2165) (.c 0), .sbb 64 32 (.x 2199) (.x 2167) (.c 0), .sbb 64 32 (.x 2201) (.x 2169) (.c 0),
  .sbb 64 32 (.x 2203) (.x 2171) (.c 0), .sbb 64 32 (.x 2205) (.x 2173) (.c 0), .sbb 64 32 (.x 2207) (.x 2175) (.c 0),
  .sbb 64 32 (.x 2209) (.x 2177) (.c 0), .sbb 64 32 (.x 2211) (.x 2179) (.c 0), .sbb 64 32 (.x 2213) (.x 2181) (.c 0),
  .sbb 64 32 (.x 2215) (.x 2183) (.c 0), .sbb 64 32 (.x 2217) (.x 2185) (.c 0), .sbb 64 32 (.x 2219) (.x 2187) (.c 0x80000000),
  .sbb 64 32 (.x 2221) (.x 2189) (.c 0), .cmov 32 (.x 2223) (.x 2190) (.x 2157), .cmov 32 (.x 2223) (.x 2192) (.x 2159),
  .cmov 32 (.x 2223) (.x 2194) (.x 2161), .cmov 32 (.x 2223) (.x 2196) (.x 2163), .cmov 32 (.x 2223) (.x 2198) (.x 2165),
  .cmov 32 (.x 2223) (.x 2200) (.x 2167), .cmov 32 (.x 2223) (.x 2202) (.x 2169), .cmov 32 (.x 2223) (.x 2204) (.x 2171),
  .cmov 32 (.x 2223) (.x 2206) (.x 2173), .cmov 32 (.x 2223) (.x 2208) (.x 2175), .cmov 32 (.x 2223) (.x 2210) (.x 2177),
  .cmov 32 (.x 2223) (.x 2212) (.x 2179), .cmov 32 (.x 2223) (.x 2214) (.x 2181), .cmov 32 (.x 2223) (.x 2216) (.x 2183),
  .cmov 32 (.x 2223) (.x 2218) (.x 2185), .cmov 32 (.x 2223) (.x 2220) (.x 2187)], [2224, 2225, 2226, 2227, 2228, 2229, 2230, 2231, 2232, 2233, 2234, 2235, 2236, 2237, 2238, 2239]⟩

/-- `fiat_id_tc26_gost_3410_2012_512_paramSetB_square`, lines 11748-16260. -/
def square : CProg := ⟨[
  .set (.a 1), .set (.a 2), .set (.a 3), .set (.a 4), .set (.a 5), .set (.a 6), .set (.a 7), .set (.a 8), .set (.a 9), .set (.a 10),
  .set (.a 11), .set (.a 12), .set (.a 13), .set (.a 14), .set (.a 15), .set (.a 0), .mulx 32 (.x 16) (.a 15), .mulx 32 (.x 16) (.a 14),
  .mulx 32 (.x 16) (.a 13), .mulx 32 (.x 16) (.a 12), .mulx 32 (.x 16) (.a 11), .mulx 32 (.x 16) (.a 10), .mulx 32 (.x 16) (.a 9),
  .mulx 32 (.x 16) (.a 8), .mulx 32 (.x 16) (.a 7), .mulx 32 (.x 16) (.a 6), .mulx 32 (.x 16) (.a 5), .mulx 32 (.x 16) (.a 4),
  .mulx 32 (.x 16) (.a 3), .mulx 32 (.x 16) (.a 2), .mulx 32 (.x 16) (.a 1), .mulx 32 (.x 16) (.a 0), .adc 64 32 (.c 0) (.x 48) (.x 45),
  .adc 64 32 (.x 50) (.x 46) (.x 43), .adc 64 32 (.x 52) (.x 44) (.x 41), .adc 64 32 (.x 54) (.x 42) (.x 39),
  .adc 64 32 (.x 56) (.x 40) (.x 37), .adc 64 32 (.x 58) (.x 38) (.x 35), .adc 64 32 (.x 60) (.x 36) (.x 33),
  .adc 64 32 (.x 62) (.x 34) (.x 31), .adc 64 32 (.x 64) (.x 32) (.x 29), .adc 64 32 (.x 66) (.x 30) (.x 27),
  .adc 64 32 (.x 68) (.x 28) (.x 25), .adc 64 32 (.x 70) (.x 26) (.x 23), .adc 64 32 (.x 72) (.x 24) (.x 21),
  .adc 64 32 (.x 74) (.x 22) (.x 19), .adc 64 32 (.x 76) (.x 20) (.x 17), .set (.add 32 (.x 78) (.x 18)), .mulx 32 (.x 47) (.c 0x24e6a171),
  .mulx 32 (.x 80) (.c 0x80000000), .mulx 32 (.x 80) (.c 0x6f), .adc 64 32 (.c 0) (.x 47) (.x 84), .adc 64 32 (.x 87) (.x 49) (.x 85),
  .adc 64 32 (.x 89) (.x 51) (.c 0), .adc 64 32 (.x 91) (.x 53) (.c 0), .adc 64 32 (.x 93) (.x 55) (.c 0),
  .adc 64 32 (.x 95) (.x 57) (.c 0), .adc 64 32 (.x 97) (.x 59) (.c 0), .adc 64 32 (.x 99) (.x 61) (.c 0),
  .adc 64 32 (.x 101) (.x 63) (.c 0), .adc 64 32 (.x 103) (.x 65) (.c 0), .adc 64 32 (.x 105) (.x 67) (.c 0),
  .adc 64 32 (.x 107) (.x 69) (.c 0), .adc 64 32 (.x 109) (.x 71) (.c 0), .adc 64 32 (.x 111) (.x 73) (.c 0),
  .adc 64 32 (.x 113) (.x 75) (.c 0), .adc 64 32 (.x 115) (.x 77) (.x 82), .adc 64 32 (.x 117) (.x 79) (.x 83), .mulx 32 (.x 1) (.a 15),
  .mulx 32 (.x 1) (.a 14), .mulx 32 (.x 1) (.a 13), .mulx 32 (.x 1) (.a 12), .mulx 32 (.x 1) (.a 11), .mulx 32 (.x 1) (.a 10),
  .mulx 32 (.x 1) (.a 9), .mulx 32 (.x 1) (.a 8), .mulx 32 (.x 1) (.a 7), .mulx 32 (.x 1) (.a 6), .mulx 32 (.x 1) (.a 5),
  .mulx 32 (.x 1) (.a 4), .mulx 32 (.x 1) (.a 3), .mulx 32 (.x 1) (.a 2), .mulx 32 (.x 1) (.a 1), .mulx 32 (.x 1) (.a 0),
  .adc 64 32 (.c 0) (.x 151) (.x 148), .adc 64 32 (.x 153) (.x 149) (.x 146), .adc 64 32 (.x 155) (.x 147) (.x 144),
  .adc 64 32 (.x 157) (.x 145) (.x 142), .adc 64 32 (.x 159) (.x 143) (.x 140), .adc 64 32 (.x 161) (.x 141) (.x 138),
  .adc 64 32 (.x 163) (.x 139) (.x 136), .adc 64 32 (.x 165) (.x 137) (.x 134), .adc 64 32 (.x 167) (.x 135) (.x 132),
  .adc 64 32 (.x 169) (.x 133) (.x 130), .adc 64 32 (.x 171) (.x 131) (.x 128), .adc 64 32 (.x 173) (.x 129) (.x 126),
  .adc 64 32 (.x 175) (.x 127) (.x 124), .adc 64 32 (.x 177) (.x 125) (.x 122), .adc 64 32 (.x 179) (.x 123) (.x 120),
  .set (.add 32 (.x 181) (.x 121)), .adc 64 32 (.c 0) (.x 88) (.x 150), .adc 64 32 (.x 184) (.x 90) (.x 152),
  .adc 64 32 (.x 186) (.x 92) (.x 154), .adc 64 32 (.x 188) (.x 94) (.x 156), .adc 64 32 (.x 190) (.x 96) (.x 158),
  .adc 64 32 (.x 192) (.x 98) (.x 160), .adc 64 32 (.x 194) (.x 100) (.x 162), .adc 64 32 (.x 196) (.x 102) (.x 164),
  .adc 64 32 (.x 198) (.x 104) (.x 166), .adc 64 32 (.x 200) (.x 106) (.x 168), .adc 64 32 (.x 202) (.x 108) (.x 170),
  .adc 64 32 (.x 204) (.x 110) (.x 172), .adc 64 32 (.x 206) (.x 112) (.x 174), .adc 64 32 (.x 208) (.x 114) (.x 176),
  .adc 64 32 (.x 210) (.x 116) (.x 178), .adc 64 32 (.x 212) (.x 118) (.x 180), .adc 64 32 (.x 214) (.x 119) (.x 182),
  .mulx 32 (.x 183) (.c 0x24e6a171), .mulx 32 (.x 217) (.c 0x80000000), .mulx 32 (.x 217) (.c 0x6f), .adc 64 32 (.c 0) (.x 183) (.x 221),
  .adc 64 32 (.x 224) (.x 185) (.x 222), .adc 64 32 (.x 226) (.x 187) (.c 0), .adc 64 32 (.x 228) (.x 189) (.c 0),
  .adc 64 32 (.x 230) (.x 191) (.c 0), .adc 64 32 (.x 232) (.x 193) (.c 0), .adc 64 32 (.x 234) (.x 195) (.c 0),
  .adc 64 32 (.x 236) (.x 197) (.c 0), .adc 64 32 (.x 238) (.x 199) (.c 0), .adc 64 32 (.x 240) (.x 201) (.c 0),
  .adc 64 32 (.x 242) (.x 203) (.c 0), .adc 64 32 (.x 244) (.x 205) (.c 0), .adc 64 32 (.x 246) (.x 207) (.c 0),
  .adc 64 32 (.x 248) (.x 209) (.c 0), .adc 64 32 (.x 250) (.x 211) (.c 0), .adc 64 32 (.x 252) (.x 213) (.x 219),
  .adc 64 32 (.x 254) (.x 215) (.x 220), .set (.add 32 (.x 256) (.x 216)), .mulx 32 (.x 2) (.a 15), .mulx 32 (.x 2) (.a 14),
  .mulx 32 (.x 2) (.a 13), .mulx 32 (.x 2) (.a 12), .mulx 32 (.x 2) (.a 11), .mulx 32 (.x 2) (.a 10), .mulx 32 (.x 2) (.a 9),
  .mulx 32 (.x 2) (.a 8), .mulx 32 (.x 2) (.a 7), .mulx 32 (.x 2) (.a 6), .mulx 32 (.x 2) (.a 5), .mulx 32 (.x 2) (.a 4),
  .mulx 32 (.x 2) (.a 3), .mulx 32 (.x 2) (.a 2), .mulx 32 (.x 2) (.a 1), .mulx 32 (.x 2) (.a 0), .adc 64 32 (.c 0) (.x 289) (.x 286),
  .adc 64 32 (.x 291) (.x 287) (.x 284), .adc 64 32 (.x 293) (.x 285) (.x 282), .adc 64 32 (.x 295) (.x 283) (.x 280),
  .adc 64 32 (.x 297) (.x 281) (.x 278), .adc 64 32 (.x 299) (.x 279) (.x 276), .adc 64 32 (.x 301) (.x 277) (.x 274),
  .adc 64 32 (.x 303) (.x 275) (.x 272), .adc 64 32 (.x 305) (.x 273) (.x 270), .adc 64 32 (.x 307) (.x 271) (.x 268),
  .adc 64 32 (.x 309) (.x 269) (.x 266), .adc 64 32 (.x 311) (.x 267) (.x 264), .adc 64 32 (.x 313) (.x 265) (.x 262),
  .adc 64 32 (.x 315) (.x 263) (.x 260), .adc 64 32 (.x 317) (.x 261) (.x 258), .set (.add 32 (.x 319) (.x 259)),
  .adc 64 32 (.c 0) (.x 225) (.x 288), .adc 64 32 (.x 322) (.x 227) (.x 290), .adc 64 32 (.x 324) (.x 229) (.x 292),
  .adc 64 32 (.x 326) (.x 231) (.x 294), .adc 64 32 (.x 328) (.x 233) (.x 296), .adc 64 32 (.x 330) (.x 235) (.x 298),
  .adc 64 32 (.x 332) (.x 237) (.x 300), .adc 64 32 (.x 334) (.x 239) (.x 302), .adc 64 32 (.x 336) (.x 241) (.x 304),
  .adc 64 32 (.x 338) (.x 243) (.x 306), .adc 64 32 (.x 340) (.x 245) (.x 308), .adc 64 32 (.x 342) (.x 247) (.x 310),
  .adc 64 32 (.x 344) (.x 249) (.x 312), .adc 64 32 (.x 346) (.x 251) (.x 314), .adc 64 32 (.x 348) (.x 253) (.x 316),
  .adc 64 32 (.x 350) (.x 255) (.x 318), .adc 64 32 (.x 352) (.x 257) (.x 320), .mulx 32 (.x 321) (.c 0x24e6a171),
  .mulx 32 (.x 355) (.c 0x80000000), .mulx 32 (.x 355) (.c 0x6f), .adc 64 32 (.c 0) (.x 321) (.x 359),
  .adc 64 32 (.x 362) (.x 323) (.x 360), .adc 64 32 (.x 364) (.x 325) (.c 0), .adc 64 32 (.x 366) (.x 327) (.c 0),
  .adc 64 32 (.x 368) (.x 329) (.c 0), .adc 64 32 (.x 370) (.x 331) (.c 0), .adc 64 32 (.x 372) (.x 333) (.c 0),
  .adc 64 32 (.x 374) (.x 335) (.c 0), .adc 64 32 (.x 376) (.x 337) (.c 0), .adc 64 32 (.x 378) (.x 339) (.c 0),
  .adc 64 32 (.x 380) (.x 341) (.c 0), .adc 64 32 (.x 382) (.x 343) (.c 0), .adc 64 32 (.x 384) (.x 345) (.c 0),
  .adc 64 32 (.x 386) (.x 347) (.c 0), .adc 64 32 (.x 388) (.x 349) (.c 0), .adc 64 32 (.x 390) (.x 351) (.x 357),
  .adc 64 32 (.x 392) (.x 353) (.x 358), .set (.add 32 (.x 394) (.x 354)), .mulx 32 (.x 3) (.a 15), .mulx 32 (.x 3) (.a 14),
  .mulx 32 (.x 3) (.a 13), .mulx 32 (.x 3) (.a 12), .mulx 32 (.x 3) (.a 11), .mulx 32 (.x 3) (.a 10), .mulx 32 (.x 3) (.a 9),
  .mulx 32 (.x 3) (.a 8), .mulx 32 (.x 3) (.a 7), .mulx 32 (.x 3) (.a 6), .mulx 32 (.x 3) (.a 5), .mulx 32 (.x 3) (.a 4),
  .mulx 32 (.x 3) (.a 3), .mulx 32 (.x 3) (.a 2), .mulx 32 (.x 3) (.a 1), .mulx 32 (.x 3) (.a 0), .adc 64 32 (.c 0) (.x 427) (.x 424),
  .adc 64 32 (.x 429) (.x 425) (.x 422), .adc 64 32 (.x 431) (.x 423) (.x 420), .adc 64 32 (.x 433) (.x 421) (.x 418),
  .adc 64 32 (.x 435) (.x 419) (.x 416), .adc 64 32 (.x 437) (.x 417) (.x 414), .adc 64 32 (.x 439) (.x 415) (.x 412),
  .adc 64 32 (.x 441) (.x 413) (.x 410), .adc 64 32 (.x 443) (.x 411) (.x 408), .adc 64 32 (.x 445) (.x 409) (.x 406),
  .adc 64 32 (.x 447) (.x 407) (.x 404), .adc 64 32 (.x 449) (.x 405) (.x 402), .adc 64 32 (.x 451) (.x 403) (.x 400),
  .adc 64 32 (.x 453) (.x 401) (.x 398), .adc 64 32 (.x 455) (.x 399) (.x 396), .set (.add 32 (.x 457) (.x 397)),
  .adc 64 32 (.c 0) (.x 363) (.x 426), .adc 64 32 (.x 460) (.x 365) (.x 428), .adc 64 32 (.x 462) (.x 367) (.x 430),
  .adc 64 32 (.x 464) (.x 369) (.x 432), .adc 64 32 (.x 466) (.x 371) (.x 434), .adc 64 32 (.x 468) (.x 373) (.x 436),
  .adc 64 32 (.x 470) (.x 375) (.x 438), .adc 64 32 (.x 472) (.x 377) (.x 440), .adc 64 32 (.x 474) (.x 379) (.x 442),
  .adc 64 32 (.x 476) (.x 381) (.x 444), .adc 64 32 (.x 478) (.x 383) (.x 446), .adc 64 32 (.x 480) (.x 385) (.x 448),
  .adc 64 32 (.x 482) (.x 387) (.x 450), .adc 64 32 (.x 484) (.x 389) (.x 452), .adc 64 32 (.x 486) (.x 391) (.x 454),
  .adc 64 32 (.x 488) (.x 393) (.x 456), .adc 64 32 (.x 490) (.x 395) (.x 458), .mulx 32 (.x 459) (.c 0x24e6a171),
  .mulx 32 (.x 493) (.c 0x80000000), .mulx 32 (.x 493) (.c 0x6f), .adc 64 32 (.c 0) (.x 459) (.x 497),
  .adc 64 32 (.x 500) (.x 461) (.x 498), .adc 64 32 (.x 502) (.x 463) (.c 0), .adc 64 32 (.x 504) (.x 465) (.c 0),
  .adc 64 32 (.x 506) (.x 467) (.c 0), .adc 64 32 (.x 508) (.x 469) (.c 0), .adc 64 32 (.x 510) (.x 471) (.c 0),
  .adc 64 32 (.x 512) (.x 473) (.c 0), .adc 64 32 (.x 514) (.x 475) (.c 0), .adc 64 32 (.x 516) (.x 477) (.c 0),
  .adc 64 32 (.x 518) (.x 479) (.c 0), .adc 64 32 (.x 520) (.x 481) (.c 0), .adc 64 32 (.x 522) (.x 483) (.c 0),
  .adc 64 32 (.x 524) (.x 485) (.c 0), .adc 64 32 (.x 526) (.x 487) (.c 0), .adc 64 32 (.x 528) (.x 489) (.x 495),
  .adc 64 32 (.x 530) (.x 491) (.x 496), .set (.add 32 (.x 532) (.x 492)), .mulx 32 (.x 4) (.a 15), .mulx 32 (.x 4) (.a 14),
  .mulx 32 (.x 4) (.a 13), .mulx 32 (.x 4) (.a 12), .mulx 32 (.x 4) (.a 11), .mulx 32 (.x 4) (.a 10), .mulx 32 (.x 4) (.a 9),
  .mulx 32 (.x 4) (.a 8), .mulx 32 (.x 4) (.a 7), .mulx 32 (.x 4) (.a 6), .mulx 32 (.x 4) (.a 5), .mulx 32 (.x 4) (.a 4),
  .mulx 32 (.x 4) (.a 3), .mulx 32 (.x 4) (.a 2), .mulx 32 (.x 4) (.a 1), .mulx 32 (.x 4) (.a 0), .adc 64 32 (.c 0) (.x 565) (.x 562),
  .adc 64 32 (.x 567) (.x 563) (.x 560), .adc 64 32 (.x 569) (.x 561) (.x 558), .adc 64 32 (.x 571) (.x 559) (.x 556),
  .adc 64 32 (.x 573) (.x 557) (.x 554), .adc 64 32 (.x 575) (.x 555) (.x 552), .adc 64 32 (.x 577) (.x 553) (.x 550),
  .adc 64 32 (.x 579) (.x 551) (.x 548), .adc 64 32 (.x 581) (.x 549) (.x 546), .adc 64 32 (.x 583) (.x 547) (.x 544),
  .adc 64 32 (.x 585) (.x 545) (.x 542), .adc 64 32 (.x 587) (.x 543) (.x 540), .adc 64 32 (.x 589) (.x 541) (.x 538),
  .adc 64 32 (.x 591) (.x 539) (.x 536), .adc 64 32 (.x 593) (.x 537) (.x 534), .set (.add 32 (.x 595) (.x 535)),
  .adc 64 32 (.c 0) (.x 501) (.x 564), .adc 64 32 (.x 598) (.x 503) (.x 566), .adc 64 32 (.x 600) (.x 505) (.x 568),
  .adc 64 32 (.x 602) (.x 507) (.x 570), .adc 64 32 (.x 604) (.x 509) (.x 572), .adc 64 32 (.x 606) (.x 511) (.x 574),
  .adc 64 32 (.x 608) (.x 513) (.x 576), .adc 64 32 (.x 610) (.x 515) (.x 578), .adc 64 32 (.x 612) (.x 517) (.x 580),
  .adc 64 32 (.x 614) (.x 519) (.x 582), .adc 64 32 (.x 616) (.x 521) (.x 584), .adc 64 32 (.x 618) (.x 523) (.x 586),
  .adc 64 32 (.x 620) (.x 525) (.x 588), .adc 64 32 (.x 622) (.x 527) (.x 590), .adc 64 32 (.x 624) (.x 529) (.x 592),
  .adc 64 32 (.x 626) (.x 531) (.x 594), .adc 64 32 (.x 628) (.x 533) (.x 596), .mulx 32 (.x 597) (.c 0x24e6a171),
  .mulx 32 (.x 631) (.c 0x80000000), .mulx 32 (.x 631) (.c 0x6f), .adc 64 32 (.c 0) (.x 597) (.x 635),
  .adc 64 32 (.x 638) (.x 599) (.x 636), .adc 64 32 (.x 640) (.x 601) (.c 0), .adc 64 32 (.x 642) (.x 603) (.c 0),
  .adc 64 32 (.x 644) (.x 605) (.c 0), .adc 64 32 (.x 646) (.x 607) (.c 0), .adc 64 32 (.x 648) (.x 609) (.c 0),
  .adc 64 32 (.x 650) (.x 611) (.c 0), .adc 64 32 (.x 652) (.x 613) (.c 0), .adc 64 32 (.x 654) (.x 615) (.c 0),
  .adc 64 32 (.x 656) (.x 617) (.c 0), .adc 64 32 (.x 658) (.x 619) (.c 0), .adc 64 32 (.x 660) (.x 621) (.c 0),
  .adc 64 32 (.x 662) (.x 623) (.c 0), .adc 64 32 (.x 664) (.x 625) (.c 0), .adc 64 32 (.x 666) (.x 627) (.x 633),
  .adc 64 32 (.x 668) (.x 629) (.x 634), .set (.add 32 (.x 670) (.x 630)), .mulx 32 (.x 5) (.a 15), .mulx 32 (.x 5) (.a 14),
  .mulx 32 (.x 5) (.a 13), .mulx 32 (.x 5) (.a 12), .mulx 32 (.x 5) (.a 11), .mulx 32 (.x 5) (.a 10), .mulx 32 (.x 5) (.a 9),
  .mulx 32 (.x 5) (.a 8), .mulx 32 (.x 5) (.a 7), .mulx 32 (.x 5) (.a 6), .mulx 32 (.x 5) (.a 5), .mulx 32 (.x 5) (.a 4),
  .mulx 32 (.x 5) (.a 3), .mulx 32 (.x 5) (.a 2), .mulx 32 (.x 5) (.a 1), .mulx 32 (.x 5) (.a 0), .adc 64 32 (.c 0) (.x 703) (.x 700),
  .adc 64 32 (.x 705) (.x 701) (.x 698), .adc 64 32 (.x 707) (.x 699) (.x 696), .adc 64 32 (.x 709) (.x 697) (.x 694),
  .adc 64 32 (.x 711) (.x 695) (.x 692), .adc 64 32 (.x 713) (.x 693) (.x 690), .adc 64 32 (.x 715) (.x 691) (.x 688),
  .adc 64 32 (.x 717) (.x 689) (.x 686), .adc 64 32 (.x 719) (.x 687) (.x 684), .adc 64 32 (.x 721) (.x 685) (.x 682),
  .adc 64 32 (.x 723) (.x 683) (.x 680), .adc 64 32 (.x 725) (.x 681) (.x 678), .adc 64 32 (.x 727) (.x 679) (.x 676),
  .adc 64 32 (.x 729) (.x 677) (.x 674), .adc 64 32 (.x 731) (.x 675) (.x 672), .set (.add 32 (.x 733) (.x 673)),
  .adc 64 32 (.c 0) (.x 639) (.x 702), .adc 64 32 (.x 736) (.x 641) (.x 704), .adc 64 32 (.x 738) (.x 643) (.x 706),
  .adc 64 32 (.x 740) (.x 645) (.x 708), .adc 64 32 (.x 742) (.x 647) (.x 710), .adc 64 32 (.x 744) (.x 649) (.x 712),
  .adc 64 32 (.x 746) (.x 651) (.x 714), .adc 64 32 (.x 748) (.x 653) (.x 716), .adc 64 32 (.x 750) (.x 655) (.x 718),
  .adc 64 32 (.x 752) (.x 657) (.x 720), .adc 64 32 (.x 754) (.x 659) (.x 722), .adc 64 32 (.x 756) (.x 661) (.x 724),
  .adc 64 32 (.x 758) (.x 663) (.x 726), .adc 64 32 (.x 760) (.x 665) (.x 728), .adc 64 32 (.x 762) (.x 667) (.x 730),
  .adc 64 32 (.x 764) (.x 669) (.x 732), .adc 64 32 (.x 766) (.x 671) (.x 734), .mulx 32 (.x 735) (.c 0x24e6a171),
  .mulx 32 (.x 769) (.c 0x80000000), .mulx 32 (.x 769) (.c 0x6f), .adc 64 32 (.c 0) (.x 735) (.x 773),
  .adc 64 32 (.x 776) (.x 737) (.x 774), .adc 64 32 (.x 778) (.x 739) (.c 0), .adc 64 32 (.x 780) (.x 741) (.c 0),
  .adc 64 32 (.x 782) (.x 743) (.c 0), .adc 64 32 (.x 784) (.x 745) (.c 0), .adc 64 32 (.x 786) (.x 747) (.c 0),
  .adc 64 32 (.x 788) (.x 749) (.c 0), .adc 64 32 (.x 790) (.x 751) (.c 0), .adc 64 32 (.x 792) (.x 753) (.c 0),
  .adc 64 32 (.x 794) (.x 755) (.c 0), .adc 64 32 (.x 796) (.x 757) (.c 0), .adc 64 32 (.x 798) (.x 759) (.c 0),
  .adc 64 32 (.x 800) (.x 761) (.c 0), .adc 64 32 (.x 802) (.x 763) (.c 0), .adc 64 32 (.x 804) (.x 765) (.x 771),
  .adc 64 32 (.x 806) (.x 767) (.x 772), .set (.add 32 (.x 808) (.x 768)), .mulx 32 (.x 6) (.a 15), .mulx 32 (.x 6) (.a 14),
  .mulx 32 (.x 6) (.a 13), .mulx 32 (.x 6) (.a 12), .mulx 32 (.x 6) (.a 11), .mulx 32 (.x 6) (.a 10), .mulx 32 (.x 6) (.a 9),
  .mulx 32 (.x 6) (.a 8), .mulx 32 (.x 6) (.a 7), .mulx 32 (.x 6) (.a 6), .mulx 32 (.x 6) (.a 5), .mulx 32 (.x 6) (.a 4),
  .mulx 32 (.x 6) (.a 3), .mulx 32 (.x 6) (.a 2), .mulx 32 (.x 6) (.a 1), .mulx 32 (.x 6) (.a 0), .adc 64 32 (.c 0) (.x 841) (.x 838),
  .adc 64 32 (.x 843) (.x 839) (.x 836), .adc 64 32 (.x 845) (.x 837) (.x 834), .adc 64 32 (.x 847) (.x 835) (.x 832),
  .adc 64 32 (.x 849) (.x 833) (.x 830), .adc 64 32 (.x 851) (.x 831) (.x 828), .adc 64 32 (.x 853) (.x 829) (.x 826),
  .adc 64 32 (.x 855) (.x 827) (.x 824), .adc 64 32 (.x 857) (.x 825) (.x 822), .adc 64 32 (.x 859) (.x 823) (.x 820),
  .adc 64 32 (.x 861) (.x 821) (.x 818), .adc 64 32 (.x 863) (.x 819) (.x 816), .adc 64 32 (.x 865) (.x 817) (.x 814),
  .adc 64 32 (.x 867) (.x 815) (.x 812), .adc 64 32 (.x 869) (.x 813) (.x 810), .set (.add 32 (.x 871) (.x 811)),
  .adc 64 32 (.c 0) (.x 777) (.x 840), .adc 64 32 (.x 874) (.x 779) (.x 842), .adc 64 32 (.x 876) (.x 781) (.x 844),
  .adc 64 32 (.x 878) (.x 783) (.x 846), .adc 64 32 (.x 880) (.x 785) (.x 848), .adc 64 32 (.x 882) (.x 787) (.x 850),
  .adc 64 32 (.x 884) (.x 789) (.x 852), .adc 64 32 (.x 886) (.x 791) (.x 854), .adc 64 32 (.x 888) (.x 793) (.x 856),
  .adc 64 32 (.x 890) (.x 795) (.x 858), .adc 64 32 (.x 892) (.x 797) (.x 860), .adc 64 32 (.x 894) (.x 799) (.x 862),
  .adc 64 32 (.x 896) (.x 801) (.x 864), .adc 64 32 (.x 898) (.x 803) (.x 866), .adc 64 32 (.x 900) (.x 805) (.x 868),
  .adc 64 32 (.x 902) (.x 807) (.x 870), .adc 64 32 (.x 904) (.x 809) (.x 872), .mulx 32 (.x 873) (.c 0x24e6a171),
  .mulx 32 (.x 907) (.c 0x80000000), .mulx 32 (.x 907) (.c 0x6f), .adc 64 32 (.c 0) (.x 873) (.x 911),
  .adc 64 32 (.x 914) (.x 875) (.x 912), .adc 64 32 (.x 916) (.x 877) (.c 0), .adc 64 32 (.x 918) (.x 879) (.c 0),
  .adc 64 32 (.x 920) (.x 881) (.c 0), .adc 64 32 (.x 922) (.x 883) (.c 0), .adc 64 32 (.x 924) (.x 885) (.c 0),
  .adc 64 32 (.x 926) (.x 887) (.c 0), .adc 64 32 (.x 928) (.x 889) (.c 0), .adc 64 32 (.x 930) (.x 891) (.c 0),
  .adc 64 32 (.x 932) (.x 893) (.c 0), .adc 64 32 (.x 934) (.x 895) (.c 0), .adc 64 32 (.x 936) (.x 897) (.c 0),
  .adc 64 32 (.x 938) (.x 899) (.c 0), .adc 64 32 (.x 940) (.x 901) (.c 0), .adc 64 32 (.x 942) (.x 903) (.x 909),
  .adc 64 32 (.x 944) (.x 905) (.x 910), .set (.add 32 (.x 946) (.x 906)), .mulx 32 (.x 7) (.a 15), .mulx 32 (.x 7) (.a 14),
  .mulx 32 (.x 7) (.a 13), .mulx 32 (.x 7) (.a 12), .mulx 32 (.x 7) (.a 11), .mulx 32 (.x 7) (.a 10), .mulx 32 (.x 7) (.a 9),
  .mulx 32 (.x 7) (.a 8), .mulx 32 (.x 7) (.a 7), .mulx 32 (.x 7) (.a 6), .mulx 32 (.x 7) (.a 5), .mulx 32 (.x 7) (.a 4),
  .mulx 32 (.x 7) (.a 3), .mulx 32 (.x 7) (.a 2), .mulx 32 (.x 7) (.a 1), .mulx 32 (.x 7) (.a 0), .adc 64 32 (.c 0) (.x 979) (.x 976),
  .adc 64 32 (.x 981) (.x 977) (.x 974), .adc 64 32 (.x 983) (.x 975) (.x 972), .adc 64 32 (.x 985) (.x 973) (.x 970),
  .adc 64 32 (.x 987) (.x 971) (.x 968), .adc 64 32 (.x 989) (.x 969) (.x 966), .adc 64 32 (.x 991) (.x 967) (.x 964),
  .adc 64 32 (.x 993) (.x 965) (.x 962), .adc 64 32 (.x 995) (.x 963) (.x 960), .adc 64 32 (.x 997) (.x 961) (.x 958),
  .adc 64 32 (.x 999) (.x 959) (.x 956), .adc 64 32 (.x 1001) (.x 957) (.x 954), .adc 64 32 (.x 1003) (.x 955) (.x 952),
  .adc 64 32 (.x 1005) (.x 953) (.x 950), .adc 64 32 (.x 1007) (.x 951) (.x 948), .set (.add 32 (.x 1009) (.x 949)),
  .adc 64 32 (.c 0) (.x 915) (.x 978), .adc 64 32 (.x 1012) (.x 917) (.x 980), .adc 64 32 (.x 1014) (.x 919) (.x 982),
  .adc 64 32 (.x 1016) (.x 921) (.x 984), .adc 64 32 (.x 1018) (.x 923) (.x 986), .adc 64 32 (.x 1020) (.x 925) (.x 988),
  .adc 64 32 (.x 1022) (.x 927) (.x 990), .adc 64 32 (.x 1024) (.x 929) (.x 992), .adc 64 32 (.x 1026) (.x 931) (.x 994),
  .adc 64 32 (.x 1028) (.x 933) (.x 996), .adc 64 32 (.x 1030) (.x 935) (.x 998), .adc 64 32 (.x 1032) (.x 937) (.x 1000),
  .adc 64 32 (.x 1034) (.x 939) (.x 1002), .adc 64 32 (.x 1036) (.x 941) (.x 1004), .adc 64 32 (.x 1038) (.x 943) (.x 1006),
  .adc 64 32 (.x 1040) (.x 945) (.x 1008), .adc 64 32 (.x 1042) (.x 947) (.x 1010), .mulx 32 (.x 1011) (.c 0x24e6a171),
  .mulx 32 (.x 1045) (.c 0x80000000), .mulx 32 (.x 1045) (.c 0x6f), .adc 64 32 (.c 0) (.x 1011) (.x 1049),
  .adc 64 32 (.x 1052) (.x 1013) (.x 1050), .adc 64 32 (.x 1054) (.x 1015) (.c 0), .adc 64 32 (.x 1056) (.x 1017) (.c 0),
  .adc 64 32 (.x 1058) (.x 1019) (.c 0), .adc 64 32 (.x 1060) (.x 1021) (.c 0), .adc 64 32 (.x 1062) (.x 1023) (.c 0),
  .adc 64 32 (.x 1064) (.x 1025) (.c 0), .adc 64 32 (.x 1066) (.x 1027) (.c 0), .adc 64 32 (.x 1068) (.x 1029) (.c 0),
  .adc 64 32 (.x 1070) (.x 1031) (.c 0), .adc 64 32 (.x 1072) (.x 1033) (.c 0), .adc 64 32 (.x 1074) (.x 1035) (.c 0),
  .adc 64 32 (.x 1076) (.x 1037) (.c 0), .adc 64 32 (.x 1078) (.x 1039) (.c 0), .adc 64 32 (.x 1080) (.x 1041) (.x 1047),
  .adc 64 32 (.x 1082) (.x 1043) (.x 1048), .set (.add 32 (.x 1084) (.x 1044)), .mulx 32 (.x 8) (.a 15), .mulx 32 (.x 8) (.a 14),
  .mulx 32 (.x 8) (.a 13), .mulx 32 (.x 8) (.a 12), .mulx 32 (.x 8) (.a 11), .mulx 32 (.x 8) (.a 10), .mulx 32 (.x 8) (.a 9),
  .mulx 32 (.x 8) (.a 8), .mulx 32 (.x 8) (.a 7), .mulx 32 (.x 8) (.a 6), .mulx 32 (.x 8) (.a 5), .mulx 32 (.x 8) (.a 4),
  .mulx 32 (.x 8) (.a 3), .mulx 32 (.x 8) (.a 2), .mulx 32 (.x 8) (.a 1), .mulx 32 (.x 8) (.a 0), .adc 64 32 (.c 0) (.x 1117) (.x 1114),
  .adc 64 32 (.x 1119) (.x 1115) (.x 1112), .adc 64 32 (.x 1121) (.x 1113) (.x 1110), .adc 64 32 (.x 1123) (.x 1111) (.x 1108),
  .adc 64 32 (.x 1125) (.x 1109) (.x 1106), .adc 64 32 (.x 1127) (.x 1107) (.x 1104), .adc 64 32 (.x 1129) (.x 1105) (.x 1102),
  .adc 64 32 (.x 1131) (.x 1103) (.x 1100), .adc 64 32 (.x 1133) (.x 1101) (.x 1098), .adc 64 32 (.x 1135) (.x 1099) (.x 1096),
  .adc 64 32 (.x 1137) (.x 1097) (.x 1094), .adc 64 32 (.x 1139) (.x 1095) (.x 1092), .adc 64 32 (.x 1141) (.x 1093) (.x 1090),
  .adc 64 32 (.x 1143) (.x 1091) (.x 1088), .adc 64 32 (.x 1145) (.x 1089) (.x 1086), .set (.add 32 (.x 1147) (.x 1087)),
  .adc 64 32 (.c 0) (.x 1053) (.x 1116), .adc 64 32 (.x 1150) (.x 1055) (.x 1118), .adc 64 32 (.x 1152) (.x 1057) (.x 1120),
  .adc 64 32 (.x 1154) (.x 1059) (.x 1122), .adc 64 32 (.x 1156) (.x 1061) (.x 1124), .adc 64 32 (.x 1158) (.x 1063) (.x 1126),
  .adc 64 32 (.x 1160) (.x 1065) (.x 1128), .adc 64 32 (.x 1162) (.x 1067) (.x 1130), .adc 64 32 (.x 1164) (.x 1069) (.x 1132),
  .adc 64 32 (.x 1166) (.x 1071) (.x 1134), .adc 64 32 (.x 1168) (.x 1073) (.x 1136), .adc 64 32 (.x 1170) (.x 1075) (.x 1138),
  .adc 64 32 (.x 1172) (.x 1077) (.x 1140), .adc 64 32 (.x 1174) (.x 1079) (.x 1142), .adc 64 32 (.x 1176) (.x 1081) (.x 1144),
  .adc 64 32 (.x 1178) (.x 1083) (.x 1146), .adc 64 32 (.x 1180) (.x 1085) (.x 1148), .mulx 32 (.x 1149) (.c 0x24e6a171),
  .mulx 32 (.x 1183) (.c 0x80000000), .mulx 32 (.x 1183) (.c 0x6f), .adc 64 32 (.c 0) (.x 1149) (.x 1187),
  .adc 64 32 (.x 1190) (.x 1151) (.x 1188), .adc 64 32 (.x 1192) (.x 1153) (.c 0), .adc 64 32 (.x 1194) (.x 1155) (.c 0),
  .adc 64 32 (.x 1196) (.x 1157) (.c 0), .adc 64 32 (.x 1198) (.x 1159) (.c 0), .adc 64 32 (.x 1200) (.x 1161) (.c 0),
  .adc 64 32 (.x 1202) (.x 1163) (.c 0), .adc 64 32 (.x 1204) (.x 1165) (.c 0), .adc 64 32 (.x 1206) (.x 1167) (.c 0),
  .adc 64 32 (.x 1208) (.x 1169) (.c 0), .adc 64 32 (.x 1210) (.x 1171) (.c 0), .adc 64 32 (.x 1212) (.x 1173) (.c 0),
  .adc 64 32 (.x 1214) (.x 1175) (.c 0), .adc 64 32 (.x 1216) (.x 1177) (.c 0), .adc 64 32 (.x 1218) (.x 1179) (.x 1185),
  .adc 64 32 (.x 1220) (.x 1181) (.x 1186), .set (.add 32 (.x 1222) (.x 1182)), .mulx 32 (.x 9) (.a 15), .mulx 32 (.x 9) (.a 14),
  .mulx 32 (.x 9) (.a 13), .mulx 32 (.x 9) (.a 12), .mulx 32 (.x 9) (.a 11), .mulx 32 (.x 9) (.a 10), .mulx 32 (.x 9) (.a 9),
  .mulx 32 (.x 9) (.a 8), .mulx 32 (.x 9) (.a 7), .mulx 32 (.x 9) (.a 6), .mulx 32 (.x 9) (.a 5), .mulx 32 (.x 9) (.a 4),
  .mulx 32 (.x 9) (.a 3), .mulx 32 (.x 9) (.a 2), .mulx 32 (.x 9) (.a 1), .mulx 32 (.x 9) (.a 0), .adc 64 32 (.c 0) (.x 1255) (.x 1252),
  .adc 64 32 (.x 1257) (.x 1253) (.x 1250), .adc 64 32 (.x 1259) (.x 1251) (.x 1248), .adc 64 32 (.x 1261) (.x 1249) (.x 1246),
  .adc 64 32 (.x 1263) (.x 1247) (.x 1244), .adc 64 32 (.x 1265) (.x 1245) (.x 1242), .adc 64 32 (.x 1267) (.x 1243) (.x 1240),
  .adc 64 32 (.x 1269) (.x 1241) (.x 1238), .adc 64 32 (.x 1271) (.x 1239) (.x 1236), .adc 64 32 (.x 1273) (.x 1237) (.x 1234),
  .adc 64 32 (.x 1275) (.x 1235) (.x 1232), .adc 64 32 (.x 1277) (.x 1233) (.x 1230), .adc 64 32 (.x 1279) (.x 1231) (.x 1228),
  .adc 64 32 (.x 1281) (.x 1229) (.x 1226), .adc 64 32 (.x 1283) (.x 1227) (.x 1224), .set (.add 32 (.x 1285) (.x 1225)),
  .adc 64 32 (.c 0) (.x 1191) (.x 1254), .adc 64 32 (.x 1288) (.x 1193) (.x 1256), .adc 64 32 (.x 1290) (.x 1195) (.x 1258),
  .adc 64 32 (.x 1292) (.x 1197) (.x 1260), .adc 64 32 (.x 1294) (.x 1199) (.x 1262), .adc 64 32 (.x 1296) (.x 1201) (.x 1264),
  .adc 64 32 (.x 1298) (.x 1203) (.x 1266), .adc 64 32 (.x 1300) (.x 1205) (.x 1268), .adc 64 32 (.x 1302) (.x 1207) (.x 1270),
  .adc 64 32 (.x 1304) (.x 1209) (.x 1272), .adc 64 32 (.x 1306) (.x 1211) (.x 1274), .adc 64 32 (.x 1308) (.x 1213) (.x 1276),
  .adc 64 32 (.x 1310) (.x 1215) (.x 1278), .adc 64 32 (.x 1312) (.x 1217) (.x 1280), .adc 64 32 (.x 1314) (.x 1219) (.x 1282),
  .adc 64 32 (.x 1316) (.x 1221) (.x 1284), .adc 64 32 (.x 1318) (.x 1223) (.x 1286), .mulx 32 (.x 1287) (.c 0x24e6a171),
  .mulx 32 (.x 1321) (.c 0x80000000), .mulx 32 (.x 1321) (.c 0x6f), .adc 64 32 (.c 0) (.x 1287) (.x 1325),
  .adc 64 32 (.x 1328) (.x 1289) (.x 1326), .adc 64 32 (.x 1330) (.x 1291) (.c 0), .adc 64 32 (.x 1332) (.x 1293) (.c 0),
  .adc 64 32 (.x 1334) (.x 1295) (.c 0), .adc 64 32 (.x 1336) (.x 1297) (.c 0), .adc 64 32 (.x 1338) (.x 1299) (.c 0),
  .adc 64 32 (.x 1340) (.x 1301) (.c 0), .adc 64 32 (.x 1342) (.x 1303) (.c 0), .adc 64 32 (.x 1344) (.x 1305) (.c 0),
  .adc 64 32 (.x 1346) (.x 1307) (.c 0), .adc 64 32 (.x 1348) (.x 1309) (.c 0), .adc 64 32 (.x 1350) (.x 1311) (.c 0),
  .adc 64 32 (.x 1352) (.x 1313) (.c 0), .adc 64 32 (.x 1354) (.x 1315) (.c 0), .adc 64 32 (.x 1356) (.x 1317) (.x 1323),
  .adc 64 32 (.x 1358) (.x 1319) (.x 1324), .set (.add 32 (.x 1360) (.x 1320)), .mulx 32 (.x 10) (.a 15), .mulx 32 (.x 10) (.a 14),
  .mulx 32 (.x 10) (.a 13), .mulx 32 (.x 10) (.a 12), .mulx 32 (.x 10) (.a 11), .mulx 32 (.x 10) (.a 10), .mulx 32 (.x 10) (.a 9),
  .mulx 32 (.x 10) (.a 8), .mulx 32 (.x 10) (.a 7), .mulx 32 (.x 10) (.a 6), .mulx 32 (.x 10) (.a 5), .mulx 32 (.x 10) (.a 4),
  .mulx 32 (.x 10) (.a 3), .mulx 32 (.x 10) (.a 2), .mulx 32 (.x 10) (.a 1), .mulx 32 (.x 10) (.a 0), .adc 64 32 (.c 0) (.x 1393) (.x 1390),
  .adc 64 32 (.x 1395) (.x 1391) (.x 1388), .adc 64 32 (.x 1397) (.x 1389) (.x 1386), .adc 64 32 (.x 1399) (.x 1387) (.x 1384),
  .adc 64 32 (.x 1401) (.x 1385) (.x 1382), .adc 64 32 (.x 1403) (.x 1383) (.x 1380), .adc 64 32 (.x 1405) (.x 1381) (.x 1378),
  .adc 64 32 (.x 1407) (.x 1379) (.x 1376), .adc 64 32 (.x 1409) (.x 1377) (.x 1374), .adc 64 32 (.x 1411) (.x 1375) (.x 1372),
  .adc 64 32 (.x 1413) (.x 1373) (.x 1370), .adc 64 32 (.x 1415) (.x 1371) (.x 1368), .adc 64 32 (.x 1417) (.x 1369) (.x 1366),
  .adc 64 32 (.x 1419) (.x 1367) (.x 1364), .adc 64 32 (.x 1421) (.x 1365) (.x 1362), .set (.add 32 (.x 1423) (.x 1363)),
  .adc 64 32 (.c 0) (.x 1329) (.x 1392), .adc 64 32 (.x 1426) (.x 1331) (.x 1394), .adc 64 32 (.x 1428) (.x 1333) (.x 1396),
  .adc 64 32 (.x 1430) (.x 1335) (.x 1398), .adc 64 32 (.x 1432) (.x 1337) (.x 1400), .adc 64 32 (.x 1434) (.x 1339) (.x 1402),
  .adc 64 32 (.x 1436) (.x 1341) (.x 1404), .adc 64 32 (.x 1438) (.x 1343) (.x 1406), .adc 64 32 (.x 1440) (.x 1345) (.x 1408),
  .adc 64 32 (.x 1442) (.x 1347) (.x 1410), .adc 64 32 (.x 1444) (.x 1349) (.x 1412), .adc 64 32 (.x 1446) (.x 1351) (.x 1414),
  .adc 64 32 (.x 1448) (.x 1353) (.x 1416), .adc 64 32 (.x 1450) (.x 1355) (.x 1418), .adc 64 32 (.x 1452) (.x 1357) (.x 1420),
  .adc 64 32 (.x 1454) (.x 1359) (.x 1422), .adc 64 32 (.x 1456) (.x 1361) (.x 1424), .mulx 32 (.x 1425) (.c 0x24e6a171),
  .mulx 32 (.x 1459) (.c 0x80000000), .mulx 32 (.x 1459) (.c 0x6f), .adc 64 32 (.c 0) (.x 1425) (.x 1463),
  .adc 64 32 (.x 1466) (.x 1427) (.x 1464), .adc 64 32 (.x 1468) (.x 1429) (.c 0), .adc 64 32 (.x 1470) (.x 1431) (.c 0),
  .adc 64 32 (.x 1472) (.x 1433) (.c 0), .adc 64 32 (.x 1474) (.x 1435) (.c 0), .adc 64 32 (.x 1476) (.x 1437) (.c 0),
  .adc 64 32 (.x 1478) (.x 1439) (.c 0), .adc 64 32 (.x 1480) (.x 1441) (.c 0), .adc 64 32 (.x 1482) (.x 1443) (.c 0),
  .adc 64 32 (.x 1484) (.x 1445) (.c 0), .adc 64 32 (.x 1486) (.x 1447) (.c 0), .adc 64 32 (.x 1488) (.x 1449) (.c 0),
  .adc 64 32 (.x 1490) (.x 1451) (.c 0), .adc 64 32 (.x 1492) (.x 1453) (.c 0), .adc 64 32 (.x 1494) (.x 1455) (.x 1461),
  .adc 64 32 (.x 1496) (.x 1457) (.x 1462), .set (.add 32 (.x 1498) (.x 1458)), .mulx 32 (.x 11) (.a 15), .mulx 32 (.x 11) (.a 14),
  .mulx 32 (.x 11) (.a 13), .mulx 32 (.x 11) (.a 12), .mulx 32 (.x 11) (.a 11), .mulx 32 (.x 11) (.a 10), .mulx 32 (.x 11) (.a 9),
  .mulx 32 (.x 11) (.a 8), .mulx 32 (.x 11) (.a 7), .mulx 32 (.x 11) (.a 6), .mulx 32 (.x 11) (.a 5), .mulx 32 (.x 11) (.a 4),
  .mulx 32 (.x 11) (.a 3), .mulx 32 (.x 11) (.a 2), .mulx 32 (.x 11) (.a 1), .mulx 32 (.x 11) (.a 0), .adc 64 32 (.c 0) (.x 1531) (.x 1528),
  .adc 64 32 (.x 1533) (.x 1529) (.x 1526), .adc 64 32 (.x 1535) (.x 1527) (.x 1524), .adc 64 32 (.x 1537) (.x 1525) (.x 1522),
  .adc 64 32 (.x 1539) (.x 1523) (.x 1520), .adc 64 32 (.x 1541) (.x 1521) (.x 1518), .adc 64 32 (.x 1543) (.x 1519) (.x 1516),
  .adc 64 32 (.x 1545) (.x 1517) (.x 1514), .adc 64 32 (.x 1547) (.x 1515) (.x 1512), .adc 64 32 (.x 1549) (.x 1513) (.x 1510),
  .adc 64 32 (.x 1551) (.x 1511) (.x 1508), .adc 64 32 (.x 1553) (.x 1509) (.x 1506), .adc 64 32 (.x 1555) (.x 1507) (.x 1504),
  .adc 64 32 (.x 1557) (.x 1505) (.x 1502), .adc 64 32 (.x 1559) (.x 1503) (.x 1500), .set (.add 32 (.x 1561) (.x 1501)),
  .adc 64 32 (.c 0) (.x 1467) (.x 1530), .adc 64 32 (.x 1564) (.x 1469) (.x 1532), .adc 64 32 (.x 1566) (.x 1471) (.x 1534),
  .adc 64 32 (.x 1568) (.x 1473) (.x 1536), .adc 64 32 (.x 1570) (.x 1475) (.x 1538), .adc 64 32 (.x 1572) (.x 1477) (.x 1540),
  .adc 64 32 (.x 1574) (.x 1479) (.x 1542), .adc 64 32 (.x 1576) (.x 1481) (.x 1544), .adc 64 32 (.x 1578) (.x 1483) (.x 1546),
  .adc 64 32 (.x 1580) (.x 1485) (.x 1548), .adc 64 32 (.x 1582) (.x 1487) (.x 1550), .adc 64 32 (.x 1584) (.x 1489) (.x 1552),
  .adc 64 32 (.x 1586) (.x 1491) (.x 1554), .adc 64 32 (.x 1588) (.x 1493) (.x 1556), .adc 64 32 (.x 1590) (.x 1495) (.x 1558),
  .adc 64 32 (.x 1592) (.x 1497) (.x 1560), .adc 64 32 (.x 1594) (.x 1499) (.x 1562), .mulx 32 (.x 1563) (.c 0x24e6a171),
  .mulx 32 (.x 1597) (.c 0x80000000), .mulx 32 (.x 1597) (.c 0x6f), .adc 64 32 (.c 0) (.x 1563) (.x 1601),
  .adc 64 32 (.x 1604) (.x 1565) (.x 1602), .adc 64 32 (.x 1606) (.x 1567) (.c 0), .adc 64 32 (.x 1608) (.x 1569) (.c 0),
  .adc 64 32 (.x 1610) (.x 1571) (.c 0), .adc 64 32 (.x 1612) (.x 1573) (.c 0), .adc 64 32 (.x 1614) (.x 1575) (.c 0),
  .adc 64 32 (.x 1616) (.x 1577) (.c 0), .adc 64 32 (.x 1618) (.x 1579) (.c 0), .adc 64 32 (.x 1620) (.x 1581) (.c 0),
  .adc 64 32 (.x 1622) (.x 1583) (.c 0), .adc 64 32 (.x 1624) (.x 1585) (.c 0), .adc 64 32 (.x 1626) (.x 1587) (.c 0),
  .adc 64 32 (.x 1628) (.x 1589) (.c 0), .adc 64 32 (.x 1630) (.x 1591) (.c 0), .adc 64 32 (.x 1632) (.x 1593) (.x 1599),
  .adc 64 32 (.x 1634) (.x 1595) (.x 1600), .set (.add 32 (.x 1636) (.x 1596)), .mulx 32 (.x 12) (.a 15), .mulx 32 (.x 12) (.a 14),
  .mulx 32 (.x 12) (.a 13), .mulx 32 (.x 12) (.a 12), .mulx 32 (.x 12) (.a 11), .mulx 32 (.x 12) (.a 10), .mulx 32 (.x 12) (.a 9),
  .mulx 32 (.x 12) (.a 8), .mulx 32 (.x 12) (.a 7), .mulx 32 (.x 12) (.a 6), .mulx 32 (.x 12) (.a 5), .mulx 32 (.x 12) (.a 4),
  .mulx 32 (.x 12) (.a 3), .mulx 32 (.x 12) (.a 2), .mulx 32 (.x 12) (.a 1), .mulx 32 (.x 12) (.a 0), .adc 64 32 (.c 0) (.x 1669) (.x 1666),
  .adc 64 32 (.x 1671) (.x 1667) (.x 1664), .adc 64 32 (.x 1673) (.x 1665) (.x 1662), .adc 64 32 (.x 1675) (.x 1663) (.x 1660),
  .adc 64 32 (.x 1677) (.x 1661) (.x 1658), .adc 64 32 (.x 1679) (.x 1659) (.x 1656), .adc 64 32 (.x 1681) (.x 1657) (.x 1654),
  .adc 64 32 (.x 1683) (.x 1655) (.x 1652), .adc 64 32 (.x 1685) (.x 1653) (.x 1650), .adc 64 32 (.x 1687) (.x 1651) (.x 1648),
  .adc 64 32 (.x 1689) (.x 1649) (.x 1646), .adc 64 32 (.x 1691) (.x 1647) (.x 1644), .adc 64 32 (.x 1693) (.x 1645) (.x 1642),
  .adc 64 32 (.x 1695) (.x 1643) (.x 1640), .adc 64 32 (.x 1697) (.x 1641) (.x 1638), .set (.add 32 (.x 1699) (.x 1639)),
  .adc 64 32 (.c 0) (.x 1605) (.x 1668), .adc 64 32 (.x 1702) (.x 1607) (.x 1670), .adc 64 32 (.x 1704) (.x 1609) (.x 1672),
  .adc 64 32 (.x 1706) (.x 1611) (.x 1674), .adc 64 32 (.x 1708) (.x 1613) (.x 1676), .adc 64 32 (.x 1710) (.x 1615) (.x 1678),
  .adc 64 32 (.x 1712) (.x 1617) (.x 1680), .adc 64 32 (.x 1714) (.x 1619) (.x 1682), .adc 64 32 (.x 1716) (.x 1621) (.x 1684),
  .adc 64 32 (.x 1718) (.x 1623) (.x 1686), .adc 64 32 (.x 1720) (.x 1625) (.x 1688), .adc 64 32 (.x 1722) (.x 1627) (.x 1690),
  .adc 64 32 (.x 1724) (.x 1629) (.x 1692), .adc 64 32 (.x 1726) (.x 1631) (.x 1694), .adc 64 32 (.x 1728) (.x 1633) (.x 1696),
  .adc 64 32 (.x 1730) (.x 1635) (.x 1698), .adc 64 32 (.x 1732) (.x 1637) (.x 1700), .mulx 32 (.x 1701) (.c 0x24e6a171),
  .mulx 32 (.x 1735) (.c 0x80000000), .mulx 32 (.x 1735) (.c 0x6f), .adc 64 32 (.c 0) (.x 1701) (.x 1739),
  .adc 64 32 (.x 1742) (.x 1703) (.x 1740), .adc 64 32 (.x 1744) (.x 1705) (.c 0), .adc 64 32 (.x 1746) (.x 1707) (.c 0),
  .adc 64 32 (.x 1748) (.x 1709) (.c 0), .adc 64 32 (.x 1750) (.x 1711) (.c 0), .adc 64 32 (.x 1752) (.x 1713) (.c 0),
  .adc 64 32 (.x 1754) (.x 1715) (.c 0), .adc 64 32 (.x 1756) (.x 1717) (.c 0), .adc 64 32 (.x 1758) (.x 1719) (.c 0),
  .adc 64 32 (.x 1760) (.x 1721) (.c 0), .adc 64 32 (.x 1762) (.x 1723) (.c 0), .adc 64 32 (.x 1764) (.x 1725) (.c 0),
  .adc 64 32 (.x 1766) (.x 1727) (.c 0), .adc 64 32 (.x 1768) (.x 1729) (.c 0), .adc 64 32 (.x 1770) (.x 1731) (.x 1737),
  .adc 64 32 (.x 1772) (.x 1733) (.x 1738), .set (.add 32 (.x 1774) (.x 1734)), .mulx 32 (.x 13) (.a 15), .mulx 32 (.x 13) (.a 14),
  .mulx 32 (.x 13) (.a 13), .mulx 32 (.x 13) (.a 12), .mulx 32 (.x 13) (.a 11), .mulx 32 (.x 13) (.a 10), .mulx 32 (.x 13) (.a 9),
  .mulx 32 (.x 13) (.a 8), .mulx 32 (.x 13) (.a 7), .mulx 32 (.x 13) (.a 6), .mulx 32 (.x 13) (.a 5), .mulx 32 (.x 13) (.a 4),
  .mulx 32 (.x 13) (.a 3), .mulx 32 (.x 13) (.a 2), .mulx 32 (.x 13) (.a 1), .mulx 32 (.x 13) (.a 0), .adc 64 32 (.c 0) (.x 1807) (.x 1804),
  .adc 64 32 (.x 1809) (.x 1805) (.x 1802), .adc 64 32 (.x 1811) (.x 1803) (.x 1800), .adc 64 32 (.x 1813) (.x 1801) (.x 1798),
  .adc 64 32 (.x 1815) (.x 1799) (.x 1796), .adc 64 32 (.x 1817) (.x 1797) (.x 1794), .adc 64 32 (.x 1819) (.x 1795) (.x 1792),
  .adc 64 32 (.x 1821) (.x 1793) (.x 1790), .adc 64 32 (.x 1823) (.x 1791) (.x 1788), .adc 64 32 (.x 1825) (.x 1789) (.x 1786),
  .adc 64 32 (.x 1827) (.x 1787) (.x 1784), .adc 64 32 (.x 1829) (.x 1785) (.x 1782), .adc 64 32 (.x 1831) (.x 1783) (.x 1780),
  .adc 64 32 (.x 1833) (.x 1781) (.x 1778), .adc 64 32 (.x 1835) (.x 1779) (.x 1776), .set (.add 32 (.x 1837) (.x 1777)),
  .adc 64 32 (.c 0) (.x 1743) (.x 1806), .adc 64 32 (.x 1840) (.x 1745) (.x 1808), .adc 64 32 (.x 1842) (.x 1747) (.x 1810),
  .adc 64 32 (.x 1844) (.x 1749) (.x 1812), .adc 64 32 (.x 1846) (.x 1751) (.x 1814), .adc 64 32 (.x 1848) (.x 1753) (.x 1816),
  .adc 64 32 (.x 1850) (.x 1755) (.x 1818), .adc 64 32 (.x 1852) (.x 1757) (.x 1820), .adc 64 32 (.x 1854) (.x 1759) (.x 1822),
  .adc 64 32 (.x 1856) (.x 1761) (.x 1824), .adc 64 32 (.x 1858) (.x 1763) (.x 1826), .adc 64 32 (.x 1860) (.x 1765) (.x 1828),
  .adc 64 32 (.x 1862) (.x 1767) (.x 1830), .adc 64 32 (.x 1864) (.x 1769) (.x 1832), .adc 64 32 (.x 1866) (.x 1771) (.x 1834),
  .adc 64 32 (.x 1868) (.x 1773) (.x 1836), .adc 64 32 (.x 1870) (.x 1775) (.x 1838), .mulx 32 (.x 1839) (.c 0x24e6a171),
  .mulx 32 (.x 1873) (.c 0x80000000), .mulx 32 (.x 1873) (.c 0x6f), .adc 64 32 (.c 0) (.x 1839) (.x 1877),
  .adc 64 32 (.x 1880) (.x 1841) (.x 1878), .adc 64 32 (.x 1882) (.x 1843) (.c 0), .adc 64 32 (.x 1884) (.x 1845) (.c 0),
  .adc 64 32 (.x 1886) (.x 1847) (.c 0), .adc 64 32 (.x 1888) (.x 1849) (.c 0), .adc 64 32 (.x 1890) (.x 1851) (.c 0),
  .adc 64 32 (.x 1892) (.x 1853) (.c 0), .adc 64 32 (.x 1894) (.x 1855) (.c 0), .adc 64 32 (.x 1896) (.x 1857) (.c 0),
  .adc 64 32 (.x 1898) (.x 1859) (.c 0), .adc 64 32 (.x 1900) (.x 1861) (.c 0), .adc 64 32 (.x 1902) (.x 1863) (.c 0),
  .adc 64 32 (.x 1904) (.x 1865) (.c 0), .adc 64 32 (.x 1906) (.x 1867) (.c 0), .adc 64 32 (.x 1908) (.x 1869) (.x 1875),
  .adc 64 32 (.x 1910) (.x 1871) (.x 1876), .set (.add 32 (.x 1912) (.x 1872)), .mulx 32 (.x 14) (.a 15), .mulx 32 (.x 14) (.a 14),
  .mulx 32 (.x 14) (.a 13), .mulx 32 (.x 14) (.a 12), .mulx 32 (.x 14) (.a 11), .mulx 32 (.x 14) (.a 10), .mulx 32 (.x 14) (.a 9),
  .mulx 32 (.x 14) (.a 8), .mulx 32 (.x 14) (.a 7), .mulx 32 (.x 14) (.a 6), .mulx 32 (.x 14) (.a 5), .mulx 32 (.x 14) (.a 4),
  .mulx 32 (.x 14) (.a 3), .mulx 32 (.x 14) (.a 2), .mulx 32 (.x 14) (.a 1), .mulx 32 (.x 14) (.a 0), .adc 64 32 (.c 0) (.x 1945) (.x 1942),
  .adc 64 32 (.x 1947) (.x 1943) (.x 1940), .adc 64 32 (.x 1949) (.x 1941) (.x 1938), .adc 64 32 (.x 1951) (.x 1939) (.x 1936),
  .adc 64 32 (.x 1953) (.x 1937) (.x 1934), .adc 64 32 (.x 1955) (.x 1935) (.x 1932), .adc 64 32 (.x 1957) (.x 1933) (.x 1930),
  .adc 64 32 (.x 1959) (.x 1931) (.x 1928), .adc 64 32 (.x 1961) (.x 1929) (.x 1926), .adc 64 32 (.x 1963) (.x 1927) (.x 1924),
  .adc 64 32 (.x 1965) (.x 1925) (.x 1922), .adc 64 32 (.x 1967) (.x 1923) (.x 1920), .adc 64 32 (.x 1969) (.x 1921) (.x 1918),
  .adc 64 32 (.x 1971) (.x 1919) (.x 1916), .adc 64 32 (.x 1973) (.x 1917) (.x 1914), .set (.add 32 (.x 1975) (.x 1915)),
  .adc 64 32 (.c 0) (.x 1881) (.x 1944), .adc 64 32 (.x 1978) (.x 1883) (.x 1946), .adc 64 32 (.x 1980) (.x 1885) (.x 1948),
  .adc 64 32 (.x 1982) (.x 1887) (.x 1950), .adc 64 32 (.x 1984) (.x 1889) (.x 1952), .adc 64 32 (.x 1986) (.x 1891) (.x 1954),
  .adc 64 32 (.x 1988) (.x 1893) (.x 1956), .adc 64 32 (.x 1990) (.x 1895) (.x 1958), .adc 64 32 (.x 1992) (.x 1897) (.x 1960),
  .adc 64 32 (.x 1994) (.x 1899) (.x 1962), .adc 64 32 (.x 1996) (.x 1901) (.x 1964), .adc 64 32 (.x 1998) (.x 1903) (.x 1966),
  .adc 64 32 (.x 2000) (.x 1905) (.x 1968), .adc 64 32 (.x 2002) (.x 1907) (.x 1970), .adc 64 32 (.x 2004) (.x 1909) (.x 1972),
  .adc 64 32 (.x 2006) (.x 1911) (.x 1974), .adc 64 32 (.x 2008) (.x 1913) (.x 1976), .mulx 32 (.x 1977) (.c 0x24e6a171),
  .mulx 32 (.x 2011) (.c 0x80000000), .mulx 32 (.x 2011) (.c 0x6f), .adc 64 32 (.c 0) (.x 1977) (.x 2015),
  .adc 64 32 (.x 2018) (.x 1979) (.x 2016), .adc 64 32 (.x 2020) (.x 1981) (.c 0), .adc 64 32 (.x 2022) (.x 1983) (.c 0),
  .adc 64 32 (.x 2024) (.x 1985) (.c 0), .adc 64 32 (.x 2026) (.x 1987) (.c 0), .adc 64 32 (.x 2028) (.x 1989) (.c 0),
  .adc 64 32 (.x 2030) (.x 1991) (.c 0), .adc 64 32 (.x 2032) (.x 1993) (.c 0), .adc 64 32 (.x 2034) (.x 1995) (.c 0),
  .adc 64 32 (.x 2036) (.x 1997) (.c 0), .adc 64 32 (.x 2038) (.x 1999) (.c 0), .adc 64 32 (.x 2040) (.x 2001) (.c 0),
  .adc 64 32 (.x 2042) (.x 2003) (.c 0), .adc 64 32 (.x 2044) (.x 2005) (.c 0), .adc 64 32 (.x 2046) (.x 2007) (.x 2013),
  .adc 64 32 (.x 2048) (.x 2009) (.x 2014), .set (.add 32 (.x 2050) (.x 2010)), .mulx 32 (.x 15) (.a 15), .mulx 32 (.x 15) (.a 14),
  .mulx 32 (.x 15) (.a 13), .mulx 32 (.x 15) (.a 12), .mulx 32 (.x 15) (.a 11), .mulx 32 (.x 15) (.a 10), .mulx 32 (.x 15) (.a 9),
  .mulx 32 (.x 15) (.a 8), .mulx 32 (.x 15) (.a 7), .mulx 32 (.x 15) (.a 6), .mulx 32 (.x 15) (.a 5), .mulx 32 (.x 15) (.a 4),
  .mulx 32 (.x 15) (.a 3), .mulx 32 (.x 15) (.a 2), .mulx 32 (.x 15) (.a 1), .mulx 32 (.x 15) (.a 0), .adc 64 32 (.c 0) (.x 2083) (.x 2080),
  .adc 64 32 (.x 2085) (.x 2081) (.x 2078), .adc 64 32 (.x 2087) (.x 2079) (.x 2076), .adc 64 32 (.x 2089) (.x 2077) (.x 2074),
  .adc 64 32 (.x 2091) (.x 2075) (.x 2072), .adc 64 32 (.x 2093) (.x 2073) (.x 2070), .adc 64 32 (.x 2095) (.x 2071) (.x 2068),
  .adc 64 32 (.x 2097) (.x 2069) (.x 2066), .adc 64 32 (.x 2099) (.x 2067) (.x 2064), .adc 64 32 (.x 2101) (.x 2065) (.x 2062),
  .adc 64 32 (.x 2103) (.x 2063) (.x 2060), .adc 64 32 (.x 2105) (.x 2061) (.x 2058), .adc 64 32 (.x 2107) (.x 2059) (.x 2056),
  .adc 64 32 (.x 2109) (.x 2057) (.x 2054), .adc 64 32 (.x 2111) (.x 2055) (.x 2052), .set (.add 32 (.x 2113) (.x 2053)),
  .adc 64 32 (.c 0) (.x 2019) (.x 2082), .adc 64 32 (.x 2116) (.x 2021) (.x 2084), .adc 64 32 (.x 2118) (.x 2023) (.x 2086),
  .adc 64 32 (.x 2120) (.x 2025) (.x 2088), .adc 64 32 (.x 2122) (.x 2027) (.x 2090), .adc 64 32 (.x 2124) (.x 2029) (.x 2092),
  .adc 64 32 (.x 2126) (.x 2031) (.x 2094), .adc 64 32 (.x 2128) (.x 2033) (.x 2096), .adc 64 32 (.x 2130) (.x 2035) (.x 2098),
  .adc 64 32 (.x 2132) (.x 2037) (.x 2100), .adc 64 32 (.x 2134) (.x 2039) (.x 2102), .adc 64 32 (.x 2136) (.x 2041) (.x 2104),
  .adc 64 32 (.x 2138) (.x 2043) (.x 2106), .adc 64 32 (.x 2140) (.x 2045) (.x 2108), .adc 64 32 (.x 2142) (.x 2047) (.x 2110),
  .adc 64 32 (.x 2144) (.x 2049) (.x 2112), .adc 64 32 (.x 2146) (.x 2051) (.x 2114), .mulx 32 (.x 2115) (.c 0x24e6a171),
  .mulx 32 (.x 2149) (.c 0x80000000), .mulx 32 (.x 2149) (.c 0x6f), .adc 64 32 (.c 0) (.x 2115) (.x 2153),
  .adc 64 32 (.x 2156) (.x 2117) (.x 2154), .adc 64 32 (.x 2158) (.x 2119) (.c 0), .adc 64 32 (.x 2160) (.x 2121) (.c 0),
  .adc 64 32 (.x 2162) (.x 2123) (.c 0), .adc 64 32 (.x 2164) (.x 2125) (.c 0), .adc 64 32 (.x 2166) (.x 2127) (.c 0),
  .adc 64 32 (.x 2168) (.x 2129) (.c 0), .adc 64 32 (.x 2170) (.x 2131) (.c 0), .adc 64 32 (.x 2172) (.x 2133) (.c 0),
  .adc 64 32 (.x 2174) (.x 2135) (.c 0), .adc 64 32 (.x 2176) (.x 2137) (.c 0), .adc 64 32 (.x 2178) (.x 2139) (.c 0),
  .adc 64 32 (.x 2180) (.x 2141) (.c 0), .adc 64 32 (.x 2182) (.x 2143) (.c 0), .adc 64 32 (.x 2184) (.x 2145) (.x 2151),
  .adc 64 32 (.x 2186) (.x 2147) (.x 2152), .set (.add 32 (.x 2188) (.x 2148)), .sbb 64 32 (.c 0) (.x 2157) (.c 0x6f),
  .sbb 64 32 (.x 2191) (.x 2159) (.c 0), .sbb 64 32 (.x 2193) (.x 2161) (.c 0), .sbb 64 32 (.x 2195) (.x 2163) (.c 0),
  .sbb 64 32 (.x 2197) (.x 2165) (.c 0), .sbb 64 32 (.x 2199) (.x 2167) (.c 0), .sbb 64 32 (.x 2201) (.x 2169) (.c 0),
  .sbb 64 32 (.x 2203) (.x 2171) (.c 0), .sbb 64 32 (.x 2205) (.x 2173) (.c 0), .sbb 64 32 (.x 2207) (.x 2175) (.c 0),
  .sbb 64 32 (.x 2209) (.x 2177) (.c 0), .sbb 64 32 (.x 2211) (.x 2179) (.c 0), .sbb 64 32 (.x 2213) (.x 2181) (.c 0),
  .sbb 64 32 (.x 2215) (.x 2183) (.c 0), .sbb 64 32 (.x 2217) (.x 2185) (.c 0), .sbb 64 32 (.x 2219) (.x 2187) (.c 0x80000000),
  .sbb 64 32 (.x 2221) (.x 2189) (.c 0), .cmov 32 (.x 2223) (.x 2190) (.x 2157), .cmov 32 (.x 2223) (.x 2192) (.x 2159),
  .cmov 32 (.x 2223) (.x 2194) (.x 2161), .cmov 32 (.x 2223) (.x 2196) (.x 2163), .cmov 32 (.x 2223) (.x 2198) (.x 2165),
  .cmov 32 (.x 2223) (.x 2200) (.x 2167), .cmov 32 (.x 2223) (.x 2202) (.x 2169), .cmov 32 (.x 2223) (.x 2204) (.x 2171),
  .cmov 32 (.x 2223) (.x 2206) (.x 2173), .cmov 32 (.x 2223) (.x 2208) (.x 2175), .cmov 32 (.x 2223) (.x 2210) (.x 2177),
  .cmov 32 (.x 2223) (.x 2212) (.x 2179), .cmov 32 (.x 2223) (.x 2214) (.x 2181), .cmov 32 (.x 2223) (.x 2216) (.x 2183),
  .cmov 32 (.x 2223) (.x 2218) (.x 2185), .cmov 32 (.x 2223) (.x 2220) (.x 2187)], [2224, 2225, 2226, 2227, 2228, 2229, 2230, 2231, 2232, 2233, 2234, 2235, 2236, 2237, 2238, 2239]⟩

/-- `fiat_id_tc26_gost_3410_2012_512_paramSetB_add`, lines 16277-16459. -/
def add : CProg := ⟨[
  .adc 64 32 (.c 0) (.a 0) (.b 0), .adc 64 32 (.x 2) (.a 1) (.b 1), .adc 64 32 (.x 4) (.a 2) (.b 2), .adc 64 32 (.x 6) (.a 3) (.b 3),
  .adc 64 32 (.x 8) (.a 4) (.b 4), .adc 64 32 (.x 10) (.a 5) (.b 5), .adc 64 32 (.x 12) (.a 6) (.b 6), .adc 64 32 (.x 14) (.a 7) (.b 7),
  .adc 64 32 (.x 16) (.a 8) (.b 8), .adc 64 32 (.x 18) (.a 9) (.b 9), .adc 64 32 (.x 20) (.a 10) (.b 10),
  .adc 64 32 (.x 22) (.a 11) (.b 11), .adc 64 32 (.x 24) (.a 12) (.b 12), .adc 64 32 (.x 26) (.a 13) (.b 13),
  .adc 64 32 (.x 28) (.a 14) (.b 14), .adc 64 32 (.x 30) (.a 15) (.b 15), .sbb 64 32 (.c 0) (.x 1) (.c 0x6f),
  .sbb 64 32 (.x 34) (.x 3) (.c 0), .sbb 64 32 (.x 36) (.x 5) (.c 0), .sbb 64 32 (.x 38) (.x 7) (.c 0), .sbb 64 32 (.x 40) (.x 9) (.c 0),
  .sbb 64 32 (.x 42) (.x 11) (.c 0), .sbb 64 32 (.x 44) (.x 13) (.c 0), .sbb 64 32 (.x 46) (.x 15) (.c 0),
  .sbb 64 32 (.x 48) (.x 17) (.c 0), .sbb 64 32 (.x 50) (.x 19) (.c 0), .sbb 64 32 (.x 52) (.x 21) (.c 0),
  .sbb 64 32 (.x 54) (.x 23) (.c 0), .sbb 64 32 (.x 56) (.x 25) (.c 0), .sbb 64 32 (.x 58) (.x 27) (.c 0),
  .sbb 64 32 (.x 60) (.x 29) (.c 0), .sbb 64 32 (.x 62) (.x 31) (.c 0x80000000), .sbb 64 32 (.x 64) (.x 32) (.c 0),
  .cmov 32 (.x 66) (.x 33) (.x 1), .cmov 32 (.x 66) (.x 35) (.x 3), .cmov 32 (.x 66) (.x 37) (.x 5), .cmov 32 (.x 66) (.x 39) (.x 7),
  .cmov 32 (.x 66) (.x 41) (.x 9), .cmov 32 (.x 66) (.x 43) (.x 11), .cmov 32 (.x 66) (.x 45) (.x 13), .cmov 32 (.x 66) (.x 47) (.x 15),
  .cmov 32 (.x 66) (.x 49) (.x 17), .cmov 32 (.x 66) (.x 51) (.x 19), .cmov 32 (.x 66) (.x 53) (.x 21), .cmov 32 (.x 66) (.x 55) (.x 23),
  .cmov 32 (.x 66) (.x 57) (.x 25), .cmov 32 (.x 66) (.x 59) (.x 27), .cmov 32 (.x 66) (.x 61) (.x 29), .cmov 32 (.x 66) (.x 63) (.x 31)], [67, 68, 69, 70, 71, 72, 73, 74, 75, 76, 77, 78, 79, 80, 81, 82]⟩

/-- `fiat_id_tc26_gost_3410_2012_512_paramSetB_sub`, lines 16476-16625. -/
def sub : CProg := ⟨[
  .sbb 64 32 (.c 0) (.a 0) (.b 0), .sbb 64 32 (.x 2) (.a 1) (.b 1), .sbb 64 32 (.x 4) (.a 2) (.b 2), .sbb 64 32 (.x 6) (.a 3) (.b 3),
  .sbb 64 32 (.x 8) (.a 4) (.b 4), .sbb 64 32 (.x 10) (.a 5) (.b 5), .sbb 64 32 (.x 12) (.a 6) (.b 6), .sbb 64 32 (.x 14) (.a 7) (.b 7),
  .sbb 64 32 (.x 16) (.a 8) (.b 8), .sbb 64 32 (.x 18) (.a 9) (.b 9), .sbb 64 32 (.x 20) (.a 10) (.b 10),
  .sbb 64 32 (.x 22) (.a 11) (.b 11), .sbb 64 32 (.x 24) (.a 12) (.b 12), .sbb 64 32 (.x 26) (.a 13) (.b 13),
  .sbb 64 32 (.x 28) (.a 14) (.b 14), .sbb 64 32 (.x 30) (.a 15) (.b 15), .cmov 32 (.x 32) (.c 0) (.c 0xffffffff),
  .adc 64 32 (.c 0) (.x 1) (.and (.x 33) (.c 0x6f)), .adc 64 32 (.x 35) (.x 3) (.c 0), .adc 64 32 (.x 37) (.x 5) (.c 0),
  .adc 64 32 (.x 39) (.x 7) (.c 0), .adc 64 32 (.x 41) (.x 9) (.c 0), .adc 64 32 (.x 43) (.x 11) (.c 0), .adc 64 32 (.x 45) (.x 13) (.c 0),
  .adc 64 32 (.x 47) (.x 15) (.c 0), .adc 64 32 (.x 49) (.x 17) (.c 0), .adc 64 32 (.x 51) (.x 19) (.c 0),
  .adc 64 32 (.x 53) (.x 21) (.c 0), .adc 64 32 (.x 55) (.x 23) (.c 0), .adc 64 32 (.x 57) (.x 25) (.c 0),
  .adc 64 32 (.x 59) (.x 27) (.c 0), .adc 64 32 (.x 61) (.x 29) (.c 0), .adc 64 32 (.x 63) (.x 31) (.and (.x 33) (.c 0x80000000))], [34, 36, 38, 40, 42, 44, 46, 48, 50, 52, 54, 56, 58, 60, 62, 64]⟩

/-- `fiat_id_tc26_gost_3410_2012_512_paramSetB_opp`, lines 16640-16789. -/
def opp : CProg := ⟨[
  .sbb 64 32 (.c 0) (.c 0) (.a 0), .sbb 64 32 (.x 2) (.c 0) (.a 1), .sbb 64 32 (.x 4) (.c 0) (.a 2), .sbb 64 32 (.x 6) (.c 0) (.a 3),
  .sbb 64 32 (.x 8) (.c 0) (.a 4), .sbb 64 32 (.x 10) (.c 0) (.a 5), .sbb 64 32 (.x 12) (.c 0) (.a 6), .sbb 64 32 (.x 14) (.c 0) (.a 7),
  .sbb 64 32 (.x 16) (.c 0) (.a 8), .sbb 64 32 (.x 18) (.c 0) (.a 9), .sbb 64 32 (.x 20) (.c 0) (.a 10), .sbb 64 32 (.x 22) (.c 0) (.a 11),
  .sbb 64 32 (.x 24) (.c 0) (.a 12), .sbb 64 32 (.x 26) (.c 0) (.a 13), .sbb 64 32 (.x 28) (.c 0) (.a 14),
  .sbb 64 32 (.x 30) (.c 0) (.a 15), .cmov 32 (.x 32) (.c 0) (.c 0xffffffff), .adc 64 32 (.c 0) (.x 1) (.and (.x 33) (.c 0x6f)),
  .adc 64 32 (.x 35) (.x 3) (.c 0), .adc 64 32 (.x 37) (.x 5) (.c 0), .adc 64 32 (.x 39) (.x 7) (.c 0), .adc 64 32 (.x 41) (.x 9) (.c 0),
  .adc 64 32 (.x 43) (.x 11) (.c 0), .adc 64 32 (.x 45) (.x 13) (.c 0), .adc 64 32 (.x 47) (.x 15) (.c 0),
  .adc 64 32 (.x 49) (.x 17) (.c 0), .adc 64 32 (.x 51) (.x 19) (.c 0), .adc 64 32 (.x 53) (.x 21) (.c 0),
  .adc 64 32 (.x 55) (.x 23) (.c 0), .adc 64 32 (.x 57) (.x 25) (.c 0), .adc 64 32 (.x 59) (.x 27) (.c 0),
  .adc 64 32 (.x 61) (.x 29) (.c 0), .adc 64 32 (.x 63) (.x 31) (.and (.x 33) (.c 0x80000000))], [34, 36, 38, 40, 42, 44, 46, 48, 50, 52, 54, 56, 58, 60, 62, 64]⟩

/-- `fiat_id_tc26_gost_3410_2012_512_paramSetB_from_montgomery`, lines 16804-17542. -/
def from_montgomery : CProg := ⟨[
  .set (.a 0), .mulx 32 (.x 1) (.c 0x24e6a171), .mulx 32 (.x 2) (.c 0x80000000), .mulx 32 (.x 2) (.c 0x6f), .adc 64 32 (.c 0) (.x 1) (.x 6),
  .adc 64 32 (.c 0) (.add 32 (.x 9) (.x 7)) (.a 1), .mulx 32 (.x 10) (.c 0x24e6a171), .mulx 32 (.x 12) (.c 0x80000000),
  .mulx 32 (.x 12) (.c 0x6f), .adc 64 32 (.c 0) (.x 5) (.x 14), .adc 64 32 (.c 0) (.x 10) (.x 16),
  .adc 64 32 (.c 0) (.add 32 (.add 32 (.x 21) (.x 11)) (.x 17)) (.a 2), .mulx 32 (.x 22) (.c 0x24e6a171), .mulx 32 (.x 24) (.c 0x80000000),
  .mulx 32 (.x 24) (.c 0x6f), .adc 64 32 (.c 0) (.add 32 (.x 19) (.x 15)) (.x 26), .adc 64 32 (.c 0) (.x 22) (.x 28),
  .adc 64 32 (.c 0) (.add 32 (.add 32 (.x 33) (.x 23)) (.x 29)) (.a 3), .mulx 32 (.x 34) (.c 0x24e6a171), .mulx 32 (.x 36) (.c 0x80000000),
  .mulx 32 (.x 36) (.c 0x6f), .adc 64 32 (.c 0) (.add 32 (.x 31) (.x 27)) (.x 38), .adc 64 32 (.c 0) (.x 34) (.x 40),
  .adc 64 32 (.c 0) (.add 32 (.add 32 (.x 45) (.x 35)) (.x 41)) (.a 4), .mulx 32 (.x 46) (.c 0x24e6a171), .mulx 32 (.x 48) (.c 0x80000000),
  .mulx 32 (.x 48) (.c 0x6f), .adc 64 32 (.c 0) (.add 32 (.x 43) (.x 39)) (.x 50), .adc 64 32 (.c 0) (.x 46) (.x 52),
  .adc 64 32 (.c 0) (.add 32 (.add 32 (.x 57) (.x 47)) (.x 53)) (.a 5), .mulx 32 (.x 58) (.c 0x24e6a171), .mulx 32 (.x 60) (.c 0x80000000),
  .mulx 32 (.x 60) (.c 0x6f), .adc 64 32 (.c 0) (.add 32 (.x 55) (.x 51)) (.x 62), .adc 64 32 (.c 0) (.x 58) (.x 64),
  .adc 64 32 (.c 0) (.add 32 (.add 32 (.x 69) (.x 59)) (.x 65)) (.a 6), .mulx 32 (.x 70) (.c 0x24e6a171), .mulx 32 (.x 72) (.c 0x80000000),
  .mulx 32 (.x 72) (.c 0x6f), .adc 64 32 (.c 0) (.add 32 (.x 67) (.x 63)) (.x 74), .adc 64 32 (.c 0) (.x 70) (.x 76),
  .adc 64 32 (.c 0) (.add 32 (.add 32 (.x 81) (.x 71)) (.x 77)) (.a 7), .mulx 32 (.x 82) (.c 0x24e6a171), .mulx 32 (.x 84) (.c 0x80000000),
  .mulx 32 (.x 84) (.c 0x6f), .adc 64 32 (.c 0) (.add 32 (.x 79) (.x 75)) (.x 86), .adc 64 32 (.c 0) (.x 82) (.x 88),
  .adc 64 32 (.c 0) (.add 32 (.add 32 (.x 93) (.x 83)) (.x 89)) (.a 8), .mulx 32 (.x 94) (.c 0x24e6a171), .mulx 32 (.x 96) (.c 0x80000000),
  .mulx 32 (.x 96) (.c 0x6f), .adc 64 32 (.c 0) (.add 32 (.x 91) (.x 87)) (.x 98), .adc 64 32 (.c 0) (.x 94) (.x 100),
  .adc 64 32 (.c 0) (.add 32 (.add 32 (.x 105) (.x 95)) (.x 101)) (.a 9), .mulx 32 (.x 106) (.c 0x24e6a171),
  .mulx 32 (.x 108) (.c 0x80000000), .mulx 32 (.x 108) (.c 0x6f), .adc 64 32 (.c 0) (.add 32 (.x 103) (.x 99)) (.x 110),
  .adc 64 32 (.c 0) (.x 106) (.x 112), .adc 64 32 (.c 0) (.add 32 (.add 32 (.x 117) (.x 107)) (.x 113)) (.a 10),
  .mulx 32 (.x 118) (.c 0x24e6a171), .mulx 32 (.x 120) (.c 0x80000000), .mulx 32 (.x 120) (.c 0x6f),
  .adc 64 32 (.c 0) (.add 32 (.x 115) (.x 111)) (.x 122), .adc 64 32 (.c 0) (.x 118) (.x 124),
  .adc 64 32 (.c 0) (.add 32 (.add 32 (.x 129) (.x 119)) (.x 125)) (.a 11), .mulx 32 (.x 130) (.c 0x24e6a171),
  .mulx 32 (.x 132) (.c 0x80000000), .mulx 32 (.x 132) (.c 0x6f), .adc 64 32 (.c 0) (.add 32 (.x 127) (.x 123)) (.x 134),
  .adc 64 32 (.c 0) (.x 130) (.x 136), .adc 64 32 (.c 0) (.add 32 (.add 32 (.x 141) (.x 131)) (.x 137)) (.a 12),
  .mulx 32 (.x 142) (.c 0x24e6a171), .mulx 32 (.x 144) (.c 0x80000000), .mulx 32 (.x 144) (.c 0x6f),
  .adc 64 32 (.c 0) (.add 32 (.x 139) (.x 135)) (.x 146), .adc 64 32 (.c 0) (.x 142) (.x 148),
  .adc 64 32 (.c 0) (.add 32 (.add 32 (.x 153) (.x 143)) (.x 149)) (.a 13), .mulx 32 (.x 154) (.c 0x24e6a171),
  .mulx 32 (.x 156) (.c 0x80000000), .mulx 32 (.x 156) (.c 0x6f), .adc 64 32 (.c 0) (.add 32 (.x 151) (.x 147)) (.x 158),
  .adc 64 32 (.c 0) (.x 154) (.x 160), .adc 64 32 (.c 0) (.add 32 (.add 32 (.x 165) (.x 155)) (.x 161)) (.a 14),
  .adc 64 32 (.x 167) (.x 4) (.c 0), .adc 64 32 (.x 169) (.x 18) (.c 0), .adc 64 32 (.x 171) (.x 30) (.c 0),
  .adc 64 32 (.x 173) (.x 42) (.c 0), .adc 64 32 (.x 175) (.x 54) (.c 0), .adc 64 32 (.x 177) (.x 66) (.c 0),
  .adc 64 32 (.x 179) (.x 78) (.c 0), .adc 64 32 (.x 181) (.x 90) (.c 0), .adc 64 32 (.x 183) (.x 102) (.c 0),
  .adc 64 32 (.x 185) (.x 114) (.c 0), .adc 64 32 (.x 187) (.x 126) (.c 0), .adc 64 32 (.x 189) (.x 138) (.c 0),
  .adc 64 32 (.x 191) (.x 150) (.c 0), .adc 64 32 (.x 193) (.x 162) (.c 0), .mulx 32 (.x 166) (.c 0x24e6a171),
  .mulx 32 (.x 196) (.c 0x80000000), .mulx 32 (.x 196) (.c 0x6f), .adc 64 32 (.c 0) (.x 166) (.x 200),
  .adc 64 32 (.x 203) (.x 168) (.x 201), .adc 64 32 (.x 205) (.x 170) (.c 0), .adc 64 32 (.x 207) (.x 172) (.c 0),
  .adc 64 32 (.x 209) (.x 174) (.c 0), .adc 64 32 (.x 211) (.x 176) (.c 0), .adc 64 32 (.x 213) (.x 178) (.c 0),
  .adc 64 32 (.x 215) (.x 180) (.c 0), .adc 64 32 (.x 217) (.x 182) (.c 0), .adc 64 32 (.x 219) (.x 184) (.c 0),
  .adc 64 32 (.x 221) (.x 186) (.c 0), .adc 64 32 (.x 223) (.x 188) (.c 0), .adc 64 32 (.x 225) (.x 190) (.c 0),
  .adc 64 32 (.x 227) (.x 192) (.c 0), .adc 64 32 (.x 229) (.x 194) (.c 0),
  .adc 64 32 (.x 231) (.add 32 (.x 195) (.add 32 (.x 163) (.x 159))) (.x 198), .adc 64 32 (.c 0) (.x 204) (.a 15),
  .adc 64 32 (.x 235) (.x 206) (.c 0), .adc 64 32 (.x 237) (.x 208) (.c 0), .adc 64 32 (.x 239) (.x 210) (.c 0),
  .adc 64 32 (.x 241) (.x 212) (.c 0), .adc 64 32 (.x 243) (.x 214) (.c 0), .adc 64 32 (.x 245) (.x 216) (.c 0),
  .adc 64 32 (.x 247) (.x 218) (.c 0), .adc 64 32 (.x 249) (.x 220) (.c 0), .adc 64 32 (.x 251) (.x 222) (.c 0),
  .adc 64 32 (.x 253) (.x 224) (.c 0), .adc 64 32 (.x 255) (.x 226) (.c 0), .adc 64 32 (.x 257) (.x 228) (.c 0),
  .adc 64 32 (.x 259) (.x 230) (.c 0), .adc 64 32 (.x 261) (.x 232) (.c 0), .mulx 32 (.x 234) (.c 0x24e6a171),
  .mulx 32 (.x 264) (.c 0x80000000), .mulx 32 (.x 264) (.c 0x6f), .adc 64 32 (.c 0) (.x 234) (.x 268),
  .adc 64 32 (.x 271) (.x 236) (.x 269), .adc 64 32 (.x 273) (.x 238) (.c 0), .adc 64 32 (.x 275) (.x 240) (.c 0),
  .adc 64 32 (.x 277) (.x 242) (.c 0), .adc 64 32 (.x 279) (.x 244) (.c 0), .adc 64 32 (.x 281) (.x 246) (.c 0),
  .adc 64 32 (.x 283) (.x 248) (.c 0), .adc 64 32 (.x 285) (.x 250) (.c 0), .adc 64 32 (.x 287) (.x 252) (.c 0),
  .adc 64 32 (.x 289) (.x 254) (.c 0), .adc 64 32 (.x 291) (.x 256) (.c 0), .adc 64 32 (.x 293) (.x 258) (.c 0),
  .adc 64 32 (.x 295) (.x 260) (.c 0), .adc 64 32 (.x 297) (.x 262) (.c 0),
  .adc 64 32 (.x 299) (.add 32 (.x 263) (.add 32 (.x 233) (.x 199))) (.x 266), .set (.add 32 (.x 301) (.x 267)),
  .sbb 64 32 (.c 0) (.x 272) (.c 0x6f), .sbb 64 32 (.x 304) (.x 274) (.c 0), .sbb 64 32 (.x 306) (.x 276) (.c 0),
  .sbb 64 32 (.x 308) (.x 278) (.c 0), .sbb 64 32 (.x 310) (.x 280) (.c 0), .sbb 64 32 (.x 312) (.x 282) (.c 0),
  .sbb 64 32 (.x 314) (.x 284) (.c 0), .sbb 64 32 (.x 316) (.x 286) (.c 0), .sbb 64 32 (.x 318) (.x 288) (.c 0),
  .sbb 64 32 (.x 320) (.x 290) (.c 0), .sbb 64 32 (.x 322) (.x 292) (.c 0), .sbb 64 32 (.x 324) (.x 294) (.c 0),
  .sbb 64 32 (.x 326) (.x 296) (.c 0), .sbb 64 32 (.x 328) (.x 298) (.c 0), .sbb 64 32 (.x 330) (.x 300) (.c 0),
  .sbb 64 32 (.x 332) (.x 302) (.c 0x80000000), .sbb 64 32 (.x 334) (.c 0) (.c 0), .cmov 32 (.x 336) (.x 303) (.x 272),
  .cmov 32 (.x 336) (.x 305) (.x 274), .cmov 32 (.x 336) (.x 307) (.x 276), .cmov 32 (.x 336) (.x 309) (.x 278),
  .cmov 32 (.x 336) (.x 311) (.x 280), .cmov 32 (.x 336) (.x 313) (.x 282), .cmov 32 (.x 336) (.x 315) (.x 284),
  .cmov 32 (.x 336) (.x 317) (.x 286), .cmov 32 (.x 336) (.x 319) (.x 288), .cmov 32 (.x 336) (.x 321) (.x 290),
  .cmov 32 (.x 336) (.x 323) (.x 292), .cmov 32 (.x 336) (.x 325) (.x 294), .cmov 32 (.x 336) (.x 327) (.x 296),
  .cmov 32 (.x 336) (.x 329) (.x 298), .cmov 32 (.x 336) (.x 331) (.x 300), .cmov 32 (.x 336) (.x 333) (.x 302)], [337, 338, 339, 340, 341, 342, 343, 344, 345, 346, 347, 348, 349, 350, 351, 352]⟩

/-- `fiat_id_tc26_gost_3410_2012_512_paramSetB_to_montgomery`, lines 17557-18357. -/
def to_montgomery : CProg := ⟨[
  .mulx 32 (.a 0) (.c 0xc084), .mulx 32 (.x 1) (.c 0x24e6a171), .mulx 32 (.x 3) (.c 0x80000000), .mulx 32 (.x 3) (.c 0x6f),
  .mulx 32 (.a 1) (.c 0xc084), .adc 64 32 (.c 0) (.x 1) (.x 7), .adc 64 32 (.c 0) (.add 32 (.add 32 (.x 12) (.x 2)) (.x 8)) (.x 9),
  .mulx 32 (.x 13) (.c 0x24e6a171), .mulx 32 (.x 15) (.c 0x80000000), .mulx 32 (.x 15) (.c 0x6f), .adc 64 32 (.c 0) (.x 6) (.x 17),
  .mulx 32 (.a 2) (.c 0xc084), .adc 64 32 (.c 0) (.x 13) (.x 19),
  .adc 64 32 (.c 0) (.add 32 (.add 32 (.x 26) (.add 32 (.x 14) (.x 10))) (.x 20)) (.x 23), .mulx 32 (.x 27) (.c 0x24e6a171),
  .mulx 32 (.x 29) (.c 0x80000000), .mulx 32 (.x 29) (.c 0x6f), .adc 64 32 (.c 0) (.add 32 (.x 22) (.x 18)) (.x 31),
  .mulx 32 (.a 3) (.c 0xc084), .adc 64 32 (.c 0) (.x 27) (.x 33),
  .adc 64 32 (.c 0) (.add 32 (.add 32 (.x 40) (.add 32 (.x 28) (.x 24))) (.x 34)) (.x 37), .mulx 32 (.x 41) (.c 0x24e6a171),
  .mulx 32 (.x 43) (.c 0x80000000), .mulx 32 (.x 43) (.c 0x6f), .adc 64 32 (.c 0) (.add 32 (.x 36) (.x 32)) (.x 45),
  .mulx 32 (.a 4) (.c 0xc084), .adc 64 32 (.c 0) (.x 41) (.x 47),
  .adc 64 32 (.c 0) (.add 32 (.add 32 (.x 54) (.add 32 (.x 42) (.x 38))) (.x 48)) (.x 51), .mulx 32 (.x 55) (.c 0x24e6a171),
  .mulx 32 (.x 57) (.c 0x80000000), .mulx 32 (.x 57) (.c 0x6f), .adc 64 32 (.c 0) (.add 32 (.x 50) (.x 46)) (.x 59),
  .mulx 32 (.a 5) (.c 0xc084), .adc 64 32 (.c 0) (.x 55) (.x 61),
  .adc 64 32 (.c 0) (.add 32 (.add 32 (.x 68) (.add 32 (.x 56) (.x 52))) (.x 62)) (.x 65), .mulx 32 (.x 69) (.c 0x24e6a171),
  .mulx 32 (.x 71) (.c 0x80000000), .mulx 32 (.x 71) (.c 0x6f), .adc 64 32 (.c 0) (.add 32 (.x 64) (.x 60)) (.x 73),
  .mulx 32 (.a 6) (.c 0xc084), .adc 64 32 (.c 0) (.x 69) (.x 75),
  .adc 64 32 (.c 0) (.add 32 (.add 32 (.x 82) (.add 32 (.x 70) (.x 66))) (.x 76)) (.x 79), .mulx 32 (.x 83) (.c 0x24e6a171),
  .mulx 32 (.x 85) (.c 0x80000000), .mulx 32 (.x 85) (.c 0x6f), .adc 64 32 (.c 0) (.add 32 (.x 78) (.x 74)) (.x 87),
  .mulx 32 (.a 7) (.c 0xc084), .adc 64 32 (.c 0) (.x 83) (.x 89),
  .adc 64 32 (.c 0) (.add 32 (.add 32 (.x 96) (.add 32 (.x 84) (.x 80))) (.x 90)) (.x 93), .mulx 32 (.x 97) (.c 0x24e6a171),
  .mulx 32 (.x 99) (.c 0x80000000), .mulx 32 (.x 99) (.c 0x6f), .adc 64 32 (.c 0) (.add 32 (.x 92) (.x 88)) (.x 101),
  .mulx 32 (.a 8) (.c 0xc084), .adc 64 32 (.c 0) (.x 97) (.x 103),
  .adc 64 32 (.c 0) (.add 32 (.add 32 (.x 110) (.add 32 (.x 98) (.x 94))) (.x 104)) (.x 107), .mulx 32 (.x 111) (.c 0x24e6a171),
  .mulx 32 (.x 113) (.c 0x80000000), .mulx 32 (.x 113) (.c 0x6f), .adc 64 32 (.c 0) (.add 32 (.x 106) (.x 102)) (.x 115),
  .mulx 32 (.a 9) (.c 0xc084), .adc 64 32 (.c 0) (.x 111) (.x 117),
  .adc 64 32 (.c 0) (.add 32 (.add 32 (.x 124) (.add 32 (.x 112) (.x 108))) (.x 118)) (.x 121), .mulx 32 (.x 125) (.c 0x24e6a171),
  .mulx 32 (.x 127) (.c 0x80000000), .mulx 32 (.x 127) (.c 0x6f), .adc 64 32 (.c 0) (.add 32 (.x 120) (.x 116)) (.x 129),
  .mulx 32 (.a 10) (.c 0xc084), .adc 64 32 (.c 0) (.x 125) (.x 131),
  .adc 64 32 (.c 0) (.add 32 (.add 32 (.x 138) (.add 32 (.x 126) (.x 122))) (.x 132)) (.x 135), .mulx 32 (.x 139) (.c 0x24e6a171),
  .mulx 32 (.x 141) (.c 0x80000000), .mulx 32 (.x 141) (.c 0x6f), .adc 64 32 (.c 0) (.add 32 (.x 134) (.x 130)) (.x 143),
  .mulx 32 (.a 11) (.c 0xc084), .adc 64 32 (.c 0) (.x 139) (.x 145),
  .adc 64 32 (.c 0) (.add 32 (.add 32 (.x 152) (.add 32 (.x 140) (.x 136))) (.x 146)) (.x 149), .mulx 32 (.x 153) (.c 0x24e6a171),
  .mulx 32 (.x 155) (.c 0x80000000), .mulx 32 (.x 155) (.c 0x6f), .adc 64 32 (.c 0) (.add 32 (.x 148) (.x 144)) (.x 157),
  .mulx 32 (.a 12) (.c 0xc084), .adc 64 32 (.c 0) (.x 153) (.x 159),
  .adc 64 32 (.c 0) (.add 32 (.add 32 (.x 166) (.add 32 (.x 154) (.x 150))) (.x 160)) (.x 163), .mulx 32 (.x 167) (.c 0x24e6a171),
  .mulx 32 (.x 169) (.c 0x80000000), .mulx 32 (.x 169) (.c 0x6f), .adc 64 32 (.c 0) (.add 32 (.x 162) (.x 158)) (.x 171),
  .mulx 32 (.a 13) (.c 0xc084), .adc 64 32 (.c 0) (.x 167) (.x 173),
  .adc 64 32 (.c 0) (.add 32 (.add 32 (.x 180) (.add 32 (.x 168) (.x 164))) (.x 174)) (.x 177), .mulx 32 (.x 181) (.c 0x24e6a171),
  .mulx 32 (.x 183) (.c 0x80000000), .mulx 32 (.x 183) (.c 0x6f), .adc 64 32 (.c 0) (.add 32 (.x 176) (.x 172)) (.x 185),
  .mulx 32 (.a 14) (.c 0xc084), .adc 64 32 (.c 0) (.x 181) (.x 187),
  .adc 64 32 (.c 0) (.add 32 (.add 32 (.x 194) (.add 32 (.x 182) (.x 178))) (.x 188)) (.x 191), .adc 64 32 (.x 196) (.x 5) (.x 192),
  .adc 64 32 (.x 198) (.x 21) (.c 0), .adc 64 32 (.x 200) (.x 35) (.c 0), .adc 64 32 (.x 202) (.x 49) (.c 0),
  .adc 64 32 (.x 204) (.x 63) (.c 0), .adc 64 32 (.x 206) (.x 77) (.c 0), .adc 64 32 (.x 208) (.x 91) (.c 0),
  .adc 64 32 (.x 210) (.x 105) (.c 0), .adc 64 32 (.x 212) (.x 119) (.c 0), .adc 64 32 (.x 214) (.x 133) (.c 0),
  .adc 64 32 (.x 216) (.x 147) (.c 0), .adc 64 32 (.x 218) (.x 161) (.c 0), .adc 64 32 (.x 220) (.x 175) (.c 0),
  .adc 64 32 (.x 222) (.x 189) (.c 0), .mulx 32 (.x 195) (.c 0x24e6a171), .mulx 32 (.x 225) (.c 0x80000000), .mulx 32 (.x 225) (.c 0x6f),
  .adc 64 32 (.c 0) (.x 195) (.x 229), .adc 64 32 (.x 232) (.x 197) (.x 230), .adc 64 32 (.x 234) (.x 199) (.c 0),
  .adc 64 32 (.x 236) (.x 201) (.c 0), .adc 64 32 (.x 238) (.x 203) (.c 0), .adc 64 32 (.x 240) (.x 205) (.c 0),
  .adc 64 32 (.x 242) (.x 207) (.c 0), .adc 64 32 (.x 244) (.x 209) (.c 0), .adc 64 32 (.x 246) (.x 211) (.c 0),
  .adc 64 32 (.x 248) (.x 213) (.c 0), .adc 64 32 (.x 250) (.x 215) (.c 0), .adc 64 32 (.x 252) (.x 217) (.c 0),
  .adc 64 32 (.x 254) (.x 219) (.c 0), .adc 64 32 (.x 256) (.x 221) (.c 0), .adc 64 32 (.x 258) (.x 223) (.c 0),
  .adc 64 32 (.x 260) (.add 32 (.x 224) (.add 32 (.x 190) (.x 186))) (.x 227), .mulx 32 (.a 15) (.c 0xc084),
  .adc 64 32 (.c 0) (.x 233) (.x 263), .adc 64 32 (.x 266) (.x 235) (.x 264), .adc 64 32 (.x 268) (.x 237) (.c 0),
  .adc 64 32 (.x 270) (.x 239) (.c 0), .adc 64 32 (.x 272) (.x 241) (.c 0), .adc 64 32 (.x 274) (.x 243) (.c 0),
  .adc 64 32 (.x 276) (.x 245) (.c 0), .adc 64 32 (.x 278) (.x 247) (.c 0), .adc 64 32 (.x 280) (.x 249) (.c 0),
  .adc 64 32 (.x 282) (.x 251) (.c 0), .adc 64 32 (.x 284) (.x 253) (.c 0), .adc 64 32 (.x 286) (.x 255) (.c 0),
  .adc 64 32 (.x 288) (.x 257) (.c 0), .adc 64 32 (.x 290) (.x 259) (.c 0), .adc 64 32 (.x 292) (.x 261) (.c 0),
  .mulx 32 (.x 265) (.c 0x24e6a171), .mulx 32 (.x 295) (.c 0x80000000), .mulx 32 (.x 295) (.c 0x6f), .adc 64 32 (.c 0) (.x 265) (.x 299),
  .adc 64 32 (.x 302) (.x 267) (.x 300), .adc 64 32 (.x 304) (.x 269) (.c 0), .adc 64 32 (.x 306) (.x 271) (.c 0),
  .adc 64 32 (.x 308) (.x 273) (.c 0), .adc 64 32 (.x 310) (.x 275) (.c 0), .adc 64 32 (.x 312) (.x 277) (.c 0),
  .adc 64 32 (.x 314) (.x 279) (.c 0), .adc 64 32 (.x 316) (.x 281) (.c 0), .adc 64 32 (.x 318) (.x 283) (.c 0),
  .adc 64 32 (.x 320) (.x 285) (.c 0), .adc 64 32 (.x 322) (.x 287) (.c 0), .adc 64 32 (.x 324) (.x 289) (.c 0),
  .adc 64 32 (.x 326) (.x 291) (.c 0), .adc 64 32 (.x 328) (.x 293) (.c 0),
  .adc 64 32 (.x 330) (.add 32 (.x 294) (.add 32 (.x 262) (.x 228))) (.x 297), .set (.add 32 (.x 332) (.x 298)),
  .sbb 64 32 (.c 0) (.x 303) (.c 0x6f), .sbb 64 32 (.x 335) (.x 305) (.c 0), .sbb 64 32 (.x 337) (.x 307) (.c 0),
  .sbb 64 32 (.x 339) (.x 309) (.c 0), .sbb 64 32 (.x 341) (.x 311) (.c 0), .sbb 64 32 (.x 343) (.x 313) (.c 0),
  .sbb 64 32 (.x 345) (.x 315) (.c 0), .sbb 64 32 (.x 347) (.x 317) (.c 0), .sbb 64 32 (.x 349) (.x 319) (.c 0),
  .sbb 64 32 (.x 351) (.x 321) (.c 0), .sbb 64 32 (.x 353) (.x 323) (.c 0), .sbb 64 32 (.x 355) (.x 325) (.c 0),
  .sbb 64 32 (.x 357) (.x 327) (.c 0), .sbb 64 32 (.x 359) (.x 329) (.c 0), .sbb 64 32 (.x 361) (.x 331) (.c 0),
  .sbb 64 32 (.x 363) (.x 333) (.c 0x80000000), .sbb 64 32 (.x 365) (.c 0) (.c 0), .cmov 32 (.x 367) (.x 334) (.x 303),
  .cmov 32 (.x 367) (.x 336) (.x 305), .cmov 32 (.x 367) (.x 338) (.x 307), .cmov 32 (.x 367) (.x 340) (.x 309),
  .cmov 32 (.x 367) (.x 342) (.x 311), .cmov 32 (.x 367) (.x 344) (.x 313), .cmov 32 (.x 367) (.x 346) (.x 315),
  .cmov 32 (.x 367) (.x 348) (.x 317), .cmov 32 (.x 367) (.x 350) (.x 319), .cmov 32 (.x 367) (.x 352) (.x 321),
  .cmov 32 (.x 367) (.x 354) (.x 323), .cmov 32 (.x 367) (.x 356) (.x 325), .cmov 32 (.x 367) (.x 358) (.x 327),
  .cmov 32 (.x 367) (.x 360) (.x 329), .cmov 32 (.x 367) (.x 362) (.x 331), .cmov 32 (.x 367) (.x 364) (.x 333)], [368, 369, 370, 371, 372, 373, 374, 375, 376, 377, 378, 379, 380, 381, 382, 383]⟩

/-- `fiat_id_tc26_gost_3410_2012_512_paramSetB_from_bytes`, lines 18789-19031. -/
def from_bytes : CProg := ⟨[
  .set (.shl 32 (.a 63) 24), .set (.shl 32 (.a 62) 16), .set (.shl 32 (.a 61) 8), .set (.a 60), .set (.shl 32 (.a 59) 24),
  .set (.shl 32 (.a 58) 16), .set (.shl 32 (.a 57) 8), .set (.a 56), .set (.shl 32 (.a 55) 24), .set (.shl 32 (.a 54) 16),
  .set (.shl 32 (.a 53) 8), .set (.a 52), .set (.shl 32 (.a 51) 24), .set (.shl 32 (.a 50) 16), .set (.shl 32 (.a 49) 8), .set (.a 48),
  .set (.shl 32 (.a 47) 24), .set (.shl 32 (.a 46) 16), .set (.shl 32 (.a 45) 8), .set (.a 44), .set (.shl 32 (.a 43) 24),
  .set (.shl 32 (.a 42) 16), .set (.shl 32 (.a 41) 8), .set (.a 40), .set (.shl 32 (.a 39) 24), .set (.shl 32 (.a 38) 16),
  .set (.shl 32 (.a 37) 8), .set (.a 36), .set (.shl 32 (.a 35) 24), .set (.shl 32 (.a 34) 16), .set (.shl 32 (.a 33) 8), .set (.a 32),
  .set (.shl 32 (.a 31) 24), .set (.shl 32 (.a 30) 16), .set (.shl 32 (.a 29) 8), .set (.a 28), .set (.shl 32 (.a 27) 24),
  .set (.shl 32 (.a 26) 16), .set (.shl 32 (.a 25) 8), .set (.a 24), .set (.shl 32 (.a 23) 24), .set (.shl 32 (.a 22) 16),
  .set (.shl 32 (.a 21) 8), .set (.a 20), .set (.shl 32 (.a 19) 24), .set (.shl 32 (.a 18) 16), .set (.shl 32 (.a 17) 8), .set (.a 16),
  .set (.shl 32 (.a 15) 24), .set (.shl 32 (.a 14) 16), .set (.shl 32 (.a 13) 8), .set (.a 12), .set (.shl 32 (.a 11) 24),
  .set (.shl 32 (.a 10) 16), .set (.shl 32 (.a 9) 8), .set (.a 8), .set (.shl 32 (.a 7) 24), .set (.shl 32 (.a 6) 16),
  .set (.shl 32 (.a 5) 8), .set (.a 4), .set (.shl 32 (.a 3) 24), .set (.shl 32 (.a 2) 16), .set (.shl 32 (.a 1) 8), .set (.a 0),
  .set (.add 32 (.x 63) (.x 64)), .set (.add 32 (.x 62) (.x 65)), .set (.add 32 (.x 61) (.x 66)), .set (.add 32 (.x 59) (.x 60)),
  .set (.add 32 (.x 58) (.x 68)), .set (.add 32 (.x 57) (.x 69)), .set (.add 32 (.x 55) (.x 56)), .set (.add 32 (.x 54) (.x 71)),
  .set (.add 32 (.x 53) (.x 72)), .set (.add 32 (.x 51) (.x 52)), .set (.add 32 (.x 50) (.x 74)), .set (.add 32 (.x 49) (.x 75)),
  .set (.add 32 (.x 47) (.x 48)), .set (.add 32 (.x 46) (.x 77)), .set (.add 32 (.x 45) (.x 78)), .set (.add 32 (.x 43) (.x 44)),
  .set (.add 32 (.x 42) (.x 80)), .set (.add 32 (.x 41) (.x 81)), .set (.add 32 (.x 39) (.x 40)), .set (.add 32 (.x 38) (.x 83)),
  .set (.add 32 (.x 37) (.x 84)), .set (.add 32 (.x 35) (.x 36)), .set (.add 32 (.x 34) (.x 86)), .set (.add 32 (.x 33) (.x 87)),
  .set (.add 32 (.x 31) (.x 32)), .set (.add 32 (.x 30) (.x 89)), .set (.add 32 (.x 29) (.x 90)), .set (.add 32 (.x 27) (.x 28)),
  .set (.add 32 (.x 26) (.x 92)), .set (.add 32 (.x 25) (.x 93)), .set (.add 32 (.x 23) (.x 24)), .set (.add 32 (.x 22) (.x 95)),
  .set (.add 32 (.x 21) (.x 96)), .set (.add 32 (.x 19) (.x 20)), .set (.add 32 (.x 18) (.x 98)), .set (.add 32 (.x 17) (.x 99)),
  .set (.add 32 (.x 15) (.x 16)), .set (.add 32 (.x 14) (.x 101)), .set (.add 32 (.x 13) (.x 102)), .set (.add 32 (.x 11) (.x 12)),
  .set (.add 32 (.x 10) (.x 104)), .set (.add 32 (.x 9) (.x 105)), .set (.add 32 (.x 7) (.x 8)), .set (.add 32 (.x 6) (.x 107)),
  .set (.add 32 (.x 5) (.x 108)), .set (.add 32 (.x 3) (.x 4)), .set (.add 32 (.x 2) (.x 110)), .set (.add 32 (.x 1) (.x 111))], [67, 70, 73, 76, 79, 82, 85, 88, 91, 94, 97, 100, 103, 106, 109, 112]⟩

/-- `fiat_id_tc26_gost_3410_2012_512_paramSetB_to_bytes`, lines 18484-18774. -/
def to_bytes : CProg := ⟨[
  .set (.a 15), .set (.a 14), .set (.a 13), .set (.a 12), .set (.a 11), .set (.a 10), .set (.a 9), .set (.a 8), .set (.a 7), .set (.a 6),
  .set (.a 5), .set (.a 4), .set (.a 3), .set (.a 2), .set (.a 1), .set (.a 0), .set (.cast 8 (.and (.x 16) (.c 0xff))),
  .set (.shr (.x 16) 8), .set (.cast 8 (.and (.x 18) (.c 0xff))), .set (.shr (.x 18) 8), .set (.cast 8 (.and (.x 20) (.c 0xff))),
  .set (.cast 8 (.shr (.x 20) 8)), .set (.cast 8 (.and (.x 15) (.c 0xff))), .set (.shr (.x 15) 8), .set (.cast 8 (.and (.x 24) (.c 0xff))),
  .set (.shr (.x 24) 8), .set (.cast 8 (.and (.x 26) (.c 0xff))), .set (.cast 8 (.shr (.x 26) 8)), .set (.cast 8 (.and (.x 14) (.c 0xff))),
  .set (.shr (.x 14) 8), .set (.cast 8 (.and (.x 30) (.c 0xff))), .set (.shr (.x 30) 8), .set (.cast 8 (.and (.x 32) (.c 0xff))),
  .set (.cast 8 (.shr (.x 32) 8)), .set (.cast 8 (.and (.x 13) (.c 0xff))), .set (.shr (.x 13) 8), .set (.cast 8 (.and (.x 36) (.c 0xff))),
  .set (.shr (.x 36) 8), .set (.cast 8 (.and (.x 38) (.c 0xff))), .set (.cast 8 (.shr (.x 38) 8)), .set (.cast 8 (.and (.x 12) (.c 0xff))),
  .set (.shr (.x 12) 8), .set (.cast 8 (.and (.x 42) (.c 0xff))), .set (.shr (.x 42) 8), .set (.cast 8 (.and (.x 44) (.c 0xff))),
  .set (.cast 8 (.shr (.x 44) 8)), .set (.cast 8 (.and (.x 11) (.c 0xff))), .set (.shr (.x 11) 8), .set (.cast 8 (.and (.x 48) (.c 0xff))),
  .set (.shr (.x 48) 8), .set (.cast 8 (.and (.x 50) (.c 0xff))), .set (.cast 8 (.shr (.x 50) 8)), .set (.cast 8 (.and (.x 10) (.c 0xff))),
  .set (.shr (.x 10) 8), .set (.cast 8 (.and (.x 54) (.c 0xff))), .set (.shr (.x 54) 8), .set (.cast 8 (.and (.x 56) (.c 0xff))),
  .set (.cast 8 (.shr (.x 56) 8)), .set (.cast 8 (.and (.x 9) (.c 0xff))), .set (.shr (.x 9) 8), .set (.cast 8 (.and (.x 60) (.c 0xff))),
  .set (.shr (.x 60) 8), .set (.cast 8 (.and (.x 62) (.c 0xff))), .set (.cast 8 (.shr (.x 62) 8)), .set (.cast 8 (.and (.x 8) (.c 0xff))),
  .set (.shr (.x 8) 8), .set (.cast 8 (.and (.x 66) (.c 0xff))), .set (.shr (.x 66) 8), .set (.cast 8 (.and (.x 68) (.c 0xff))),
  .set (.cast 8 (.shr (.x 68) 8)), .set (.cast 8 (.and (.x 7) (.c 0xff))), .set (.shr (.x 7) 8), .set (.cast 8 (.and (.x 72) (.c 0xff))),
  .set (.shr (.x 72) 8), .set (.cast 8 (.and (.x 74) (.c 0xff))), .set (.cast 8 (.shr (.x 74) 8)), .set (.cast 8 (.and (.x 6) (.c 0xff))),
  .set (.shr (.x 6) 8), .set (.cast 8 (.and (.x 78) (.c 0xff))), .set (.shr (.x 78) 8), .set (.cast 8 (.and (.x 80) (.c 0xff))),
  .set (.cast 8 (.shr (.x 80) 8)), .set (.cast 8 (.and (.x 5) (.c 0xff))), .set (.shr (.x 5) 8), .set (.cast 8 (.and (.x 84) (.c 0xff))),
  .set (.shr (.x 84) 8), .set (.cast 8 (.and (.x 86) (.c 0xff))), .set (.cast 8 (.shr (.x 86) 8)), .set (.cast 8 (.and (.x 4) (.c 0xff))),
  .set (.shr (.x 4) 8), .set (.cast 8 (.and (.x 90) (.c 0xff))), .set (.shr (.x 90) 8), .set (.cast 8 (.and (.x 92) (.c 0xff))),
  .set (.cast 8 (.shr (.x 92) 8)), .set (.cast 8 (.and (.x 3) (.c 0xff))), .set (.shr (.x 3) 8), .set (.cast 8 (.and (.x 96) (.c 0xff))),
  .set (.shr (.x 96) 8), .set (.cast 8 (.and (.x 98) (.c 0xff))), .set (.cast 8 (.shr (.x 98) 8)), .set (.cast 8 (.and (.x 2) (.c 0xff))),
  .set (.shr (.x 2) 8), .set (.cast 8 (.and (.x 102) (.c 0xff))), .set (.shr (.x 102) 8), .set (.cast 8 (.and (.x 104) (.c 0xff))),
  .set (.cast 8 (.shr (.x 104) 8)), .set (.cast 8 (.and (.x 1) (.c 0xff))), .set (.shr (.x 1) 8), .set (.cast 8 (.and (.x 108) (.c 0xff))),
  .set (.shr (.x 108) 8), .set (.cast 8 (.and (.x 110) (.c 0xff))), .set (.cast 8 (.shr (.x 110) 8))], [17, 19, 21, 22, 23, 25, 27, 28, 29, 31, 33, 34, 35, 37, 39, 40, 41, 43, 45, 46, 47, 49, 51, 52, 53, 55, 57, 58, 59, 61, 63, 64, 65, 67, 69, 70, 71, 73, 75, 76, 77, 79, 81, 82, 83, 85, 87, 88, 89, 91, 93, 94, 95, 97, 99, 100, 101, 103, 105, 106, 107, 109, 111, 112]⟩

/-- `fiat_id_tc26_gost_3410_2012_512_paramSetB_inv`, lines 19041-19059; the variables are 0 = t1, 0 = output, 1 = acc, 2 = t3, 3 = t13; a loop of multiplications is written out. -/
def inv : List InvStep := [.sq 1 0 1, .mul 2 0 1, .mul 3 2 1, .mul 3 3 1, .mul 3 3 1, .mul 3 3 1, .mul 3 3 1, .sq 1 0 1, .sq 1 1 505, .mul 1 1 2,
  .sq 1 1 5, .mul 0 1 3]

/-- The constants, lines: `const_one` 19063-19069, `const_b` 19071-19077; the file has no others. -/
def consts : FiatConsts where
  one := [0xffffff91, 0xffffffff, 0xffffffff, 0xffffffff, 0xffffffff, 0xffffffff, 0xffffffff, 0xffffffff, 0xffffffff, 0xffffffff, 0xffffffff, 0xffffffff, 0xffffffff, 0xffffffff, 0xffffffff, 0x7fffffff]
  a := [0, 0, 0, 0, 0, 0, 0, 0, 0, 0, 0, 0, 0, 0, 0, 0]
  b := [0x18a75dd6, 0xdbe748c3, 0x9097bfc1, 0xc954a780, 0xe2d5a471, 0x6553cd27, 0x49435cf3, 0xb99b3260, 0x16d2c5e7, 0xe9eac8a2, 0x2d0cc51, 0x260b45a1, 0x6c5bd56d, 0x8636181d, 0x2c5765bc, 0x638259a1]
  b3 := [0, 0, 0, 0, 0, 0, 0, 0, 0, 0, 0, 0, 0, 0, 0, 0]
  d := [0, 0, 0, 0, 0, 0, 0, 0, 0, 0, 0, 0, 0, 0, 0, 0]
  S := [0, 0, 0, 0, 0, 0, 0, 0, 0, 0, 0, 0, 0, 0, 0, 0]
  T := [0, 0, 0, 0, 0, 0, 0, 0, 0, 0, 0, 0, 0, 0, 0, 0]

/-- The functions of the file. -/
def file : FiatMont where
  mul := mul
  square := square
  add := add
  sub := sub
  opp := opp
  from_montgomery := from_montgomery
  to_montgomery := to_montgomery
  from_bytes := from_bytes
  to_bytes := to_bytes
  inv := inv
  limbs := 16
  consts := consts

/-- `lut_cmb`, lines 19080-21796. -/
def lut_data : List (List (AffW (List Nat))) := [
  [⟨[0xfffffeb3, 0xffffffff, 0xffffffff, 0xffffffff, 0xffffffff, 0xffffffff, 0xffffffff, 0xffffffff, 0xffffffff, 0xffffffff, 0xffffffff, 0xffffffff, 0xffffffff, 0xffffffff, 0xffffffff, 0x7fffffff], [0x2383127b, 0x9f34e17e, 0xcf48ceea, 0x4c79d571, 0x494e1bed, 0xa33463bc, 0x3a5da27f, 0x9d80747f, 0xc2f4174a, 0xdcbd09dd, 0x2147b2e0, 0xe8307a8c, 0xdbcf9ac9, 0xd1d3cced, 0xe98deff1, 0x778ffec2]⟩,
   ⟨[0xb67da584, 0xce514e6b, 0xe19c2094, 0xeb51443b, 0x9b071a6e, 0xc8e8f54b, 0xbed2a243, 0x239c53fd, 0x2ae8e157, 0x67d47b7b, 0x5550826e, 0x46de3b7, 0x17723575, 0x2f7dd21e, 0x11e8e247, 0xe6eabdd], [0x48600734, 0xf204f0d6, 0x343d6475, 0x4b3054c, 0xf7e6d181, 0x707bd9d8, 0x6b353e20, 0x535cec32, 0x108c5fe7, 0xa185fa95, 0xb573367f, 0x7033ebfa, 0x46552d77, 0xec54e36b, 0x729c9eba, 0x235e6c1a]⟩,
   ⟨[0x8b28c0dc, 0xecdcee63, 0x36ae99a1, 0xd4e35b40, 0x464a3d2f, 0xdacc813d, 0xdbaf282e, 0x8d92802a, 0x7d8757f2, 0x652cff9c, 0x7f5a8471, 0x2c1bcbd9, 0x16c3679a, 0x10192e2, 0x7529db85, 0x56269496], [0xd5f89b94, 0x7480bb90, 0x1e46ede6, 0xe01fe3d8, 0x4e57e6f5, 0xc1843163, 0x91c2df63, 0x5f8c6884, 0x5fa2dc4d, 0x42e01ed6, 0x8ff5a769, 0x629c95cd, 0x6eab4807, 0xe8c1637, 0xabd9bb6, 0x1c41fb66]⟩,
   ⟨[0x6ed32e5f, 0x6b509b4f, 0x67c95f17, 0xc62afb25, 0x5ce4762a, 0x352d4b7a, 0x9afa6acc, 0x33135815, 0x6d550b2, 0x168b5654, 0xb528df40, 0x254dcce0, 0x222c9415, 0x422adb9a, 0x3d2f923e, 0x6fc0f2ce], [0x59359ce7, 0x3cc08723, 0x91a4dc50, 0x1779c0cd, 0xc8b9922d, 0x1205971e, 0xc13192a7, 0x199f8198, 0x492db7aa, 0xa43fbdbf, 0xe82beec8, 0x9e173427, 0x3850d54e, 0x1e901499, 0xf761ec57, 0x603774b7]⟩,
   ⟨[0x2bdef3a9, 0x23b79c80, 0xd19a5f2c, 0x2217119a, 0x56b09a50, 0x49194ce1, 0x21329201, 0xee7d88a2, 0xd0bbed28, 0x1c45a959, 0x780fa0d1, 0x1ba5dad5, 0x6959608d, 0x17d7c794, 0x7e4e9b1f, 0x7da39423], [0x47508ca7, 0x435f5c55, 0x516ad549, 0x84583489, 0x2bae814, 0x9ddc49d, 0x260b4d97, 0xcd566b6e, 0xe38df931, 0x8c11211e, 0x5d473f8, 0x7d5fc8d0, 0x865c76f2, 0x48c9d7cd, 0x2a6d5599, 0x2d451737]⟩,
   ⟨[0x29c4eacd, 0x5f8b137b, 0x99075883, 0x5cb8477c, 0x50a641c4, 0xbc6736a7, 0x81b0881d, 0xf96b6d0e, 0xe561fc8f, 0x8e9c2612, 0x284e20b7, 0x8f742744, 0xd4dd11ee, 0xbc8c5be7, 0x82b2ef56, 0x414709e7], [0x6df555f2, 0xe4d6bc0a, 0x38ee529f, 0x916e0a80, 0x3414117e, 0xbbe31273, 0x3154234a, 0x2d7bf9cd, 0x1852e8ee, 0x79b9cfa9, 0x1bd9c07a, 0x62653e8c, 0x7c7aff7e, 0x35fe04f6, 0xe70ae283, 0x746c1e87]⟩,
   ⟨[0x98366ba5, 0x1f5857a1, 0x414decad, 0x96781d84, 0x66cf983e, 0xb39dd888, 0xcac19b5f, 0xde1050ac, 0x8b2aa408, 0x5a58bfa8, 0x3c440ded, 0xa0a6e961, 0xc67d0412, 0xbaaec3df, 0x6759674e, 0xe37c0e0], [0x63880d22, 0x1e623e75, 0xf0acb4b6, 0x3be27cf8, 0x4f69642e, 0x5e6abd4f, 0x13cada08, 0x3e92d34d, 0x127c48b, 0x56c64429, 0x7f3c5746, 0x620fc35b, 0xef94c612, 0x6870f3de, 0x2606f4a4, 0x219c5a5a]⟩,
   ⟨[0x1625fe00, 0xad4acaa, 0x9bee03ff, 0xd7dee6bb, 0x2e594a2c, 0x72a27d3b, 0xaab1c0e5, 0x471efd78, 0x37857650, 0xbde8465e, 0xbd9f5885, 0x1ca721c2, 0x6073dcef, 0x361e6f8a, 0xa7cf8e9, 0x2ba435e3], [0x1c6893fa, 0xc7b032bd, 0x9d4e403, 0xfa9c30e8, 0x20293a47, 0xb03af5bd, 0xe008f02d, 0x21ebc61b, 0x73d59e63, 0xa50151d, 0x78d260db, 0x18d1a3f6, 0x7d79ba96, 0xe8e3c3f4, 0x75a06f31, 0x51faed37]⟩,
   ⟨[0xe8bcbc8b, 0xecd4b979, 0xf803878f, 0x7529023c, 0x9a8b8850, 0xad84e184, 0xccf88146, 0xf1e004f8, 0xc194f3f5, 0x27406240, 0xe366d6b0, 0x175ab72f, 0x13bbcc48, 0x1a44bc85, 0x12f138c6, 0x7930f869], [0x18e4dcd0, 0x1943a865, 0xbce9f068, 0x747f6c7c, 0x54d067f7, 0x5a306f64, 0xedb2062a, 0xd1a8ef54, 0xa42f21b3, 0x60e6acae, 0x3b2d2c26, 0x9218654f, 0xe8b2778e, 0xede14471, 0x8cee6931, 0x7b868d31]⟩,
   ⟨[0xb368ff42, 0x957a4f6, 0x4c85fc, 0xf9f134fd, 0x19017e1d, 0x3a6b8a47, 0x7d50a61e, 0x673a45ea, 0x4e18ee86, 0x4a26da49, 0xdf0c17a6, 0xaf7dd8fd, 0x7e7277c3, 0xd24bf75a, 0xbf72613c, 0x5ef832a1], [0x3300ee10, 0x2e9c8e08, 0x8763ab4e, 0xcca04c06, 0xa6b7d854, 0x5f8dbc28, 0x4025c222, 0xc6cd3de8, 0xdfe44a5, 0xefd30cc1, 0x1d7be70f, 0xc2cd4442, 0x45cced5d, 0x6f8d46b, 0x2ef0c653, 0x2d74d0d6]⟩,
   ⟨[0xb26e78b9, 0x151b24df, 0xbb1ed51, 0xc57e8156, 0x9c13974b, 0x57baada5, 0x20cc5af3, 0x98336fb8, 0xc790e28, 0x1da5bd29, 0x8c6e2539, 0x877aa935, 0x9aee9d2, 0x1673f151, 0xaee66d8, 0x519fb4ee], [0x6aa8d898, 0x2b798f20, 0xba86008c, 0xc3dfb5ec, 0x343a8cbf, 0xf780333b, 0xb6d2056e, 0xff22f62a, 0x182ef2a6, 0x97f3006e, 0x3064ac5e, 0x3c5adb49, 0xc9d64c70, 0x89c8c032, 0x243db254, 0x1a9abded]⟩,
   ⟨[0x11a375bf, 0xa84b6362, 0x620a2252, 0x598270a6, 0x13a0eff8, 0xb183ec9d, 0xb755ad35, 0x2f7bebd4, 0xc53efd69, 0xeba848ed, 0x6faec1b6, 0x12059a24, 0x7a290d7b, 0xba6340a4, 0x63df6036, 0x22849432], [0x2aa27f19, 0x4702bcb6, 0x9b6d66d6, 0x8dde4920, 0xbdc2dc5d, 0xc3d4a80b, 0x691a8bd4, 0xe51ac2d6, 0x8f4211fc, 0x79485351, 0xa9d14c71, 0x163cd093, 0x89a0e099, 0x4b38a2b1, 0x9e98054e, 0x16673245]⟩,
   ⟨[0x31fbb6b8, 0xfb441071, 0x42ad947a, 0x79a8775c, 0xe72d0384, 0xa8c9e486, 0x840a1ddb, 0x9af7f292, 0x2db1b47d, 0x7e9db52, 0xba81ebad, 0x698669a, 0x2dc06b76, 0xa48e2f03, 0x79b9161a, 0x1b060248], [0x13c53a83, 0xd47bade1, 0x68727195, 0x9c1f4dd0, 0x1293376b, 0x14a2fc60, 0xdc206930, 0x8a63967e, 0x98e46f8b, 0x5d9dfe38, 0x85cf7b41, 0x9199e193, 0x113d1605, 0x3e8df54d, 0x303789e1, 0x14d3c202]⟩,
   ⟨[0x626710eb, 0x11a727d4, 0x3eb613f1, 0x38481ec1, 0x5625e925, 0xb824f831, 0xd03d016b, 0x3fefe4f7, 0xbf1fe74c, 0xce196037, 0xe956e95f, 0xe5518f38, 0x23e1ae46, 0x84e24d45, 0x3e0f63a1, 0x29d1db5a], [0x4fae4f08, 0x380bf787, 0xed8b6a7c, 0xb4e5d477, 0xdc035a0d, 0xaba43c3a, 0x25134a5c, 0x7b880508, 0x65d5a8cf, 0x2db45548, 0x7ede5f4d, 0x776b78b6, 0x79297e21, 0x4cb58481, 0x8be6dbd4, 0x1e191105]⟩,
   ⟨[0x3e98c38e, 0x4d105437, 0xb2e8be84, 0xae4b330c, 0xe16ca9cd, 0xb1a22a3d, 0x1daf0b8d, 0xe78b43cb, 0x5cb2b278, 0x509d9c34, 0x29f9fffd, 0x9a1342b3, 0x73a20a3f, 0x8159f452, 0xca064dad, 0x35043a47], [0x40e7978, 0xe000710e, 0xfaf394bb, 0x2a1da585, 0x51524252, 0xf9423ee6, 0x181acf8b, 0xd95ce5ef, 0x613b5947, 0x97a9b5, 0xab442cd0, 0x6f088d14, 0xcae96a8e, 0x4e225bac, 0xee82591b, 0x753b77b9]⟩,
   ⟨[0x43969a20, 0x41d5feec, 0x5b57402c, 0xc7e1dfa2, 0x9c098c51, 0xc43bffdd, 0x2954a8f5, 0xac5e7394, 0xb2e1308e, 0xd420a646, 0xd7cae952, 0x13476158, 0xe7b188c1, 0x6a48fa12, 0xec53c308, 0x1cf2de71], [0x653fb0fe, 0xaa44cf54, 0x450317f4, 0x4e05a63d, 0xe3aa21da, 0x8b59baa6, 0x11f7840d, 0xfa3a1cda, 0x39db678d, 0x220f39b6, 0x759cdca0, 0x6d497e96, 0x69fa5114, 0xadf3f29, 0x15349213, 0x7836181d]⟩],
  [⟨[0x5d6f9b3e, 0x1f11e63c, 0xa403a073, 0x4569a6da, 0xfe26a8bd, 0x1b585729, 0x5f41faa7, 0x2185b4e4, 0x6e99e6e1, 0x3887350c, 0x99cffb22, 0x92f63ca5, 0xa52f6381, 0x94e93270, 0xd0a380fc, 0x489ee2df], [0xb988d87d, 0x45f7836a, 0x337befa3, 0xa44dca0c, 0x55657370, 0x6f422436, 0xc16d6547, 0xe5299b33, 0x1e5aab47, 0x74a82b2f, 0xcfa92cdb, 0x795a79b9, 0x4981a557, 0x2ee0f1be, 0xf5637def, 0x3f7a2ac5]⟩,
   ⟨[0x3a0fea31, 0x78cf079d, 0x6f9069b7, 0xf5a54c8c, 0xd8c02f14, 0x24c79868, 0xf36b384f, 0x43ddb340, 0xad874f73, 0x8af55e5e, 0x5856db97, 0x29e81aca, 0x702df822, 0xb23d0e00, 0x3d029f4b, 0x58ef4f99], [0xf26ca389, 0xb28fa62, 0xecff83df, 0xd3288224, 0x3fd82eb2, 0x5d8f2319, 0x3d1cb29f, 0x68e3d3c5, 0xec26be41, 0x8df1a753, 0xc2c7412f, 0xb2074622, 0x8d5018f7, 0x3a8d3504, 0xfd309f9b, 0xb0d2d49]⟩,
   ⟨[0x9319d09a, 0xe997dd06, 0xda1726db, 0xf8a2189f, 0x266e7222, 0x3ad35868, 0xf42e1a2, 0x116610c, 0xe93cc223, 0xf23385ac, 0x8d221503, 0xe06de4f6, 0xa36ee6d9, 0xc963ef8, 0xc297bb1a, 0x13b707c8], [0x15b7bef0, 0x10675424, 0xab4ecc7e, 0x9c064518, 0x83247132, 0x324cdf0c, 0x4ce15206, 0xa9a41620, 0xf0ec82b3, 0x641c526, 0xf165b832, 0xd952d947, 0x56c3bc3c, 0xf6e4ef5b, 0xef1f3728, 0x528479a6]⟩,
   ⟨[0xa64a2c9b, 0xf84be5dc, 0xb92b2a9d, 0xc20ad405, 0x829ba060, 0xc965a45a, 0xd9f58abf, 0x5041e47f, 0x9e6aeb4e, 0x360fb8e2, 0xb995ddb3, 0xdc3b93de, 0xfa2c89e5, 0x7fb0501f, 0x9c9b058f, 0x1883f017], [0xabf2eabc, 0x9fc09649, 0xd2adfbbe, 0x51f9aa2, 0xf2471b9c, 0xb4689, 0x23db9e67, 0x2c21c96a, 0xd9d7c226, 0x840f2a03, 0x2e660925, 0xe728b070, 0xa8258042, 0x1ed21d55, 0x8da89f47, 0x20de972e]⟩,
   ⟨[0xd3de31b6, 0x3003bd09, 0x83781375, 0x6883729e, 0xa7e281ed, 0x882f56ae, 0x99873d07, 0x936861d3, 0xe329d05a, 0x68db9df0, 0xb6ed5b00, 0xefd44fb8, 0xde7afd7d, 0x95df018, 0x31fee4d2, 0x11dd7e74], [0x52e3502, 0x59256a82, 0x967c4f10, 0xb12a68cd, 0xf921e058, 0xf56e1410, 0xd9721852, 0xf7e2ced1, 0xde8cbe99, 0xe62f6371, 0xbdcf5383, 0x51bb6086, 0x5f1c9ef, 0xde865c7f, 0x59c9db82, 0x2f4d471e]⟩,
   ⟨[0x60a83a69, 0x5238e20b, 0x241f9ee4, 0xe8ed22d8, 0xc44b4d6b, 0x94609c9f, 0x738b047f, 0x8cb4f484, 0x3a311894, 0x1da03776, 0xffedbede, 0x3b2301d7, 0xc28bfa7b, 0xbe0d9731, 0x8e73852c, 0x3e672b7], [0xaa676638, 0xa1a4a97d, 0x473a0cab, 0x1cc2c685, 0x2e95739f, 0x31fe1138, 0x90c8025, 0x90aeb0d, 0x645b652e, 0x9f0a7073, 0xe83798bd, 0xc03abf85, 0x48f4c4c3, 0x71fbc2d7, 0xd38c5ba, 0x56ae0e1e]⟩,
   ⟨[0xf2c2c6c1, 0xdafdb67c, 0xcf3d93c2, 0xfd6b132e, 0xae365613, 0xa6fd14bd, 0x2b04ad13, 0xb5a2a4a, 0x36b30288, 0x2aa0470a, 0x2a2bb583, 0xbc984938, 0x2de94268, 0xc0520099, 0x49e1a2c3, 0x2cd5fbbb], [0xaad935d9, 0x82c8f94, 0x51a9454d, 0x20aece5c, 0x19e2401f, 0x5be24c7e, 0xa327a3bb, 0x7becbaf1, 0xb6300e64, 0x39e76f20, 0x9cbc4dce, 0x5d151ba7, 0xb5d04c2a, 0x7726284, 0xb721a54d, 0x4d8bd241]⟩,
   ⟨[0x9bb85232, 0xd28b4a8e, 0xcad53584, 0x4f965f03, 0xdd1b0f12, 0xdae3617b, 0x6777b034, 0xdb8660b3, 0x5f952b6a, 0xc67184dd, 0xce065ad2, 0xadcc669, 0x77ce4665, 0x1fc9cb46, 0x2234474a, 0xa01b64d], [0x1d915f94, 0xa749e82, 0x425f6eca, 0xf0d212c9, 0x1281cd10, 0xc23d014, 0x29db5fc8, 0xc933fd4, 0xba5d8406, 0x80dda2ef, 0x338183c4, 0x8c1402d5, 0xd4b5a7f9, 0x6e06c3e2, 0x8506ca5c, 0x64e3e1ab]⟩,
   ⟨[0xc94ea8d3, 0xac11d879, 0x1f28b33f, 0xdd8b6ba3, 0xaeead88d, 0x647e69ad, 0x3933567e, 0xb49b31e1, 0xee7a3136, 0xbb12fe39, 0xc80837a7, 0x28ff74a3, 0xb75677a8, 0xa932c81, 0xc29f7f54, 0x53d93d35], [0x3ac6d6ae, 0x28497194, 0x2d7f721, 0x220b50c7, 0xc1fc3346, 0xda33488c, 0xf9ed4655, 0xdd86f1ec, 0x632db517, 0xac1853b2, 0x6f0c3545, 0x3736ea46, 0x2d45b919, 0x3d92a778, 0x3d09db84, 0x5d9f5674]⟩,
   ⟨[0x9af99589, 0xd30167, 0xc5b73d12, 0xb5213f3, 0x39e67dbf, 0x8a5a80ad, 0xf837f8f4, 0xe2c58969, 0xd4ee1d6c, 0x9ddf8923, 0x33df50bb, 0x1ae3e0af, 0x4e518813, 0x7fbaa73b, 0x5f7bb71d, 0x1ce6c9b6], [0x66eb4a4e, 0xb12b057d, 0x382599e5, 0x1c88e248, 0x4e5081a6, 0x5384c3e8, 0x9e4abc53, 0xb7992a1c, 0x44bf086, 0xc0582520, 0xa7db6b58, 0xe14418eb, 0xc31464e1, 0x312673ad, 0x5fead6e3, 0x27deaeff]⟩,
   ⟨[0xade2ea17, 0x55c37c50, 0x4f0c5622, 0x1e159654, 0xf2bd8529, 0x6c96793c, 0x5af8e077, 0x2b562419, 0x52a39000, 0x47f6a019, 0x163efa85, 0xc364f4d4, 0x58be9780, 0xd3116c33, 0x9f098ff2, 0x4dbed741], [0x486d49d8, 0xb0dd4831, 0x75913b1c, 0x84a0c549, 0x3e2fa892, 0xb4a79326, 0xf8e1fcd2, 0x9e24fb33, 0xbb163de8, 0xe9e35346, 0x59ea0df0, 0x4b20fa1, 0xb8742a03, 0xb4d02bc4, 0x6c2841d9, 0x81fa037]⟩,
   ⟨[0xfba142d2, 0x514f4acb, 0x94e5f474, 0x996b6e03, 0xce24ca53, 0x5223e730, 0x4f5b06a0, 0x527581ea, 0x6a33b429, 0x31e6dd1a, 0xf6375acd, 0x93a4e1c1, 0x949ed4f7, 0x6c726ff3, 0xf8f882f8, 0x4e416e72], [0x2fd16999, 0x26fec864, 0xaba0e3a7, 0x41df4a57, 0xb4faf8ac, 0x15e54d3f, 0x6f3f282a, 0xe4318bdc, 0xf014698b, 0x7c320cd, 0x3468cbce, 0x71b73830, 0xd640cfd9, 0x1fd1af59, 0xd34059ef, 0xcf151ae]⟩,
   ⟨[0xa2b3df22, 0xb7107ce7, 0x90b45d70, 0xc1a4e08b, 0x5e20257f, 0xc86afb66, 0x11ce1970, 0xdd33cc96, 0x5f20f903, 0x44c20c48, 0x936a4522, 0x87fece7f, 0x42105dea, 0x867932e9, 0x47e2f4ab, 0x31aee1f5], [0x55b1d8a3, 0x4ce020df, 0x9b33e4d6, 0x5841bb8c, 0x7e5c052, 0x99c6ef84, 0xbb139f7b, 0xf6f0def, 0x366377c5, 0x5e608798, 0x101aff93, 0xde403cf3, 0x4b69dbfc, 0x164b26d1, 0x46229b9e, 0x190a8766]⟩,
   ⟨[0x85a61975, 0xac7b1fa1, 0xa3c0e98, 0x975ace54, 0x173a29d7, 0xb80d922d, 0x955e0187, 0x71aa4f0c, 0x3556ba4d, 0xdb3716b9, 0x248c6ece, 0x81e375e0, 0x6afd16a4, 0x4cce9787, 0x3564374, 0x67a717e8], [0xe94e08c5, 0xe0fd3f7d, 0x71ca98ad, 0xda2a5872, 0xba15def3, 0x34a8ead7, 0xc8ee8ac0, 0xd83a9987, 0xd9ce22c6, 0x64167a82, 0xe859a064, 0x7ee988ed, 0x603e188f, 0xd8b9d231, 0x248f567, 0x40c99266]⟩,
   ⟨[0x387928a0, 0x4059be67, 0x1412407d, 0x5063c31e, 0xc37fb4ad, 0x78abe79b, 0xdf5f4d6, 0xa9a4e76a, 0xf0c3c9c8, 0x1f4cccfc, 0xbb2d774f, 0x44a6d446, 0x4991f3d4, 0x1b77494e, 0xc5908739, 0x41f3a74c], [0xc6b26a88, 0xb371ab6c, 0x454963fe, 0x1e7ad15, 0x43898dc2, 0x12a6652c, 0x1ee1bbd9, 0xc9cfd8ba, 0xc5437711, 0x22037206, 0x62e81fd, 0x327f948d, 0x9c87b698, 0xa2ff4f46, 0x4eb0808e, 0x1e83a7f9]⟩,
   ⟨[0xb80f91df, 0xe2f16272, 0xb186ebd1, 0xa0265684, 0x2e7d6a85, 0x207dad69, 0xf27f03d4, 0xefabe500, 0x244072f, 0xedd0f81d, 0x944aedea, 0x4ca26c63, 0xe874f15f, 0xd8d01d46, 0x5a1130ae, 0x73e39eed], [0xe5ec45f, 0xed9953fa, 0xb4d672da, 0xf62ddd4, 0x89507053, 0x5115fe6f, 0x8354b66c, 0x58968a29, 0x72adf8e8, 0xb37024d5, 0x4d98186b, 0xd7ec1d4a, 0x7f418ac8, 0xb5b41ad6, 0x68b72616, 0x2c0959c5]⟩],
  [⟨[0x99ef1f4e, 0x1dd33dd5, 0x3cb93cf3, 0x2f2951af, 0x98f20535, 0x7bb75d57, 0xbf95ddde, 0x64c36788, 0x5e211976, 0x74b787c9, 0xbe8d9e4f, 0xb464f818, 0x91beb188, 0x2631f721, 0x5ec2bfd7, 0x3581cb61], [0xc41a6ef1, 0x56a35d67, 0xf69a3d49, 0x5895e76e, 0x8b97fda2, 0x3192d2f, 0xa0a94fa9, 0x11240c0b, 0xbddb31e7, 0x4dc27f38, 0x69a0d11a, 0x38ae33d, 0x857974b5, 0x9f3a13ee, 0x222e516, 0x2aca765e]⟩,
   ⟨[0xd2421565, 0xfa06efb5, 0x8ab1719f, 0xc199817d, 0x48c3d0c4, 0x44325f2f, 0x5a80bbef, 0xdd6c1165, 0x2a61986, 0x30791924, 0x3a7e4b1e, 0xebd53e2a, 0xc7ab55db, 0xdd3e7657, 0x7a09b71b, 0x43ea2db2], [0xa3ae7d5, 0x9002748e, 0x5b23ae62, 0x590f7c6, 0x4a2305b0, 0x44ee4fa6, 0xaba335d8, 0x914591bd, 0xab32fc4d, 0x5888289f, 0x6e19b810, 0xa5fed847, 0x17db4a48, 0x255c3f99, 0x6f25750a, 0x431eeb8]⟩,
   ⟨[0xd0a38e64, 0xb398ff44, 0x5e41904, 0x5fbad7b9, 0x357b82cd, 0xba57597b, 0xa929e6bc, 0x18be4419, 0xa98b452d, 0x3f3f6d35, 0x58d546da, 0x27425c5f, 0xc446022b, 0x61a1bbda, 0x689d15af, 0x3ea60775], [0x3f8c1b93, 0xdd097042, 0x31e09914, 0x951aac56, 0x647ccfac, 0x99c77d0f, 0x6102dee7, 0xf3cb5c7a, 0xf9484e59, 0x2c1caacb, 0x405766ac, 0x7ebd7135, 0xb0c58371, 0x267c325c, 0xc2f52776, 0x48fdf94d]⟩,
   ⟨[0x4ee6ee71, 0xf6442788, 0xc09d8faf, 0x49d6f157, 0x3c93bf65, 0x159f7aa2, 0xb5464c4, 0x992387cf, 0xdeda026e, 0xfc15173b, 0xc989fd74, 0x90b860e6, 0x2e98cc2d, 0xcc08bc0c, 0xc85bc472, 0x89d2d48], [0x3953e507, 0x9087c746, 0x90f97b85, 0x54f480a3, 0x9f9cc5d0, 0x83d61993, 0xc1970015, 0xc55de44, 0xdf669193, 0xc45d5ea1, 0xfdcf23ab, 0x5deff1e7, 0x2a211f3d, 0x2b38d479, 0x3e31284f, 0x9927925]⟩,
   ⟨[0xc38eff1a, 0x30454c23, 0xfec8424e, 0x706fd470, 0x33467a08, 0xa2163197, 0x80e6db64, 0x7c8a4d43, 0xe9ab850b, 0x505d89bf, 0x5e8df0cb, 0xc10cfeff, 0x16304b39, 0x3eb45df7, 0x527c325b, 0x3aae23fe], [0xc153da5d, 0x65dbb826, 0xffcccc80, 0xb8ec2676, 0x1c8ba8c2, 0x4538fbab, 0x66fd20ca, 0x6fa94e52, 0xa9b7513f, 0x480d857e, 0x82814908, 0xdb1c611c, 0x53f81aa5, 0xf1f21ff, 0xe1a47218, 0x20696d2d]⟩,
   ⟨[0x7ab6e8d8, 0xf31aa622, 0x686bb479, 0x3d12f32b, 0x3bf6e8f8, 0xaca48c8a, 0xfcecfcc0, 0x39d4f322, 0xc8bbcade, 0xcbd2e493, 0x5c695155, 0x18e2a8e7, 0xdf022d32, 0x4047ed16, 0xcd6cdb7c, 0x1040565e], [0x64515bd6, 0x1b72ea47, 0x9320c9cb, 0xdc58ae8, 0x5310cdbd, 0xee53907b, 0x54fe7719, 0x7c2c62a1, 0x8ae9c75e, 0xa0415080, 0x1e8a0123, 0x2bfc3780, 0xce6823ad, 0xbbcb26fe, 0xd61b79a7, 0x5e4b59a0]⟩,
   ⟨[0x90c0c1ca, 0x8c93f975, 0x8f518a16, 0x871a901, 0x964cace1, 0x6477e523, 0xa77046ac, 0xe52d22c8, 0xf9911c69, 0x4fe86722, 0xe21642c, 0x8b03b196, 0xeea31df9, 0xdd3523ef, 0xd896ae4f, 0x4d4edd43], [0xb8cb58a3, 0xeb5c2968, 0x9af9580a, 0x5c6c5b63, 0x3a166247, 0x20759ceb, 0xf964024, 0x812fbe1b, 0x816bfc2c, 0xbb295eba, 0xbc4c607, 0x35525626, 0x7d134609, 0x411799ed, 0x8615fbaa, 0x7ecbda12]⟩,
   ⟨[0xe7c6c149, 0x45eb69b3, 0xf40d6d9c, 0x9d414f65, 0x6ad70201, 0x3fc4d2a6, 0x2e2eb20a, 0x39f56d2, 0xce4f7ab7, 0xae25d395, 0x1b640f4f, 0xd69ae851, 0xcf08596a, 0x912ba30c, 0xfb7da74a, 0x7c552e1c], [0x298071ac, 0x57f7b3cc, 0x5029fcfb, 0x7b38b186, 0xdbd1afda, 0x43d0a21d, 0xcfdce1d5, 0x2165a125, 0x99e931c, 0xc2422d76, 0xd220528d, 0x3940b3f9, 0x5892ddf1, 0xa530e1e0, 0xc5edb806, 0x5d1060bb]⟩,
   ⟨[0xda19a7bf, 0x3c39cb0, 0x35061c5a, 0x9227c957, 0xe6733c8e, 0xb86ae697, 0x1d91d056, 0x4790ab41, 0x91944712, 0x82599e6e, 0x2126986f, 0xe6eeab30, 0x4c7c86dd, 0xf6cf6770, 0x81c7f520, 0x962c8e0], [0x3e672910, 0x7275701a, 0x555d4eaa, 0xcc253d25, 0xf307d6f, 0xc87804a5, 0x5e6e364d, 0xa6c40269, 0x9de73155, 0x5a4db577, 0x45b03b16, 0x8513bc05, 0x5cb1a5df, 0x7edb8b9f, 0xd4905c9b, 0x5686c42a]⟩,
   ⟨[0xc1288660, 0x1b9368c4, 0x3bcefedb, 0x5f83cd35, 0xc33cd356, 0xb4656091, 0x4920232f, 0x2284d907, 0x95b4cbca, 0x87816b06, 0xef2d4546, 0xa35a7191, 0x296e871a, 0xf9e71b1d, 0x5330af13, 0x72a7b9c3], [0x401be940, 0xac61bc6f, 0xdd2350e, 0x634d9d7, 0xce45a7c, 0xe27626f0, 0x3493fa74, 0x9b38569f, 0x6ec9dc13, 0x3f23c703, 0x9c62d952, 0x8bf8ff12, 0x58132258, 0x5d53a2d2, 0x33a57773, 0x1fc830a5]⟩,
   ⟨[0xf294e33, 0xae58a3b9, 0xaef8f84c, 0xf12e0fc4, 0x649d16ff, 0x78c5bdde, 0x8827c75f, 0x12645ca1, 0x7f97abed, 0x1288c566, 0xc1e2781e, 0xcad8e5d, 0xbc92ff24, 0x24b69a1d, 0x545221b2, 0x7068305d], [0x40f6201c, 0x7a9a3f7c, 0x5efacd4c, 0x5b7e5fa2, 0xd6275627, 0x85facb2e, 0x5bbe856b, 0xdd0fba63, 0xb2e456fd, 0x30826b1, 0x5f898479, 0xff397e8, 0xbfae4984, 0x68ecaa4e, 0xcac01fd8, 0x4eb40475]⟩,
   ⟨[0x2bc4c766, 0x141804f1, 0xc8fb07c1, 0xd84a76da, 0xc83676a9, 0x29376b5b, 0x3749490c, 0x3d3a00eb, 0xc5f439b6, 0xa5eb6cf7, 0xea156432, 0x16266439, 0x3161d4b, 0x1cf83e25, 0x95e3e8a3, 0x37603f22], [0xe920edda, 0x62ee26ec, 0xfc4df7d, 0xcd7734a3, 0xd7fbca6b, 0xef3e6c9, 0x87f1873a, 0xcf2460da, 0x1895cf1c, 0x511072, 0x4f11854b, 0xb92a8e93, 0xc665d9d, 0x98556251, 0x174a7ff2, 0x3cd64282]⟩,
   ⟨[0xb9f9e43f, 0x39243ea7, 0x270d2db1, 0x973d4582, 0x541ff4c, 0xeb8b5033, 0x9f309d70, 0xed5f52a0, 0x123f45b6, 0xe978fbae, 0x15781d, 0xa79b693, 0x5c9a03fb, 0xc5da0ccf, 0xf16d4ce1, 0x1c6e4f58], [0x89cb89db, 0x9674c2e, 0xc94a4d96, 0xb3d147b1, 0x27d24c12, 0x936f3f88, 0xa8c4ba25, 0x44e8c741, 0x920fdde8, 0x249a28ae, 0x229b2c19, 0x274f2b4e, 0xff4ec64d, 0x94c203ee, 0x43358f20, 0x53284b1f]⟩,
   ⟨[0xdccff94d, 0xe3ab8baa, 0xf97449ee, 0xf038d9a5, 0x5ef19f06, 0xe4a45dcf, 0x17ef6368, 0xfff8ad9a, 0xaddf0b6e, 0xceb6b85, 0x96ac1ba3, 0x6c7b60b1, 0xa25f77f8, 0xed84f897, 0x55886360, 0x1ee61671], [0x7ba18315, 0x8b44f38, 0xf3d0e0c4, 0x8a9ffae9, 0xe5886e61, 0x82807e7d, 0x51e94c78, 0xf15402f3, 0x96a8af2e, 0x45969d9f, 0xf4956acc, 0xa8e0ed89, 0xf2d21764, 0xb5334dec, 0x861c26b7, 0x2b274e2f]⟩,
   ⟨[0x99e77118, 0xc2e3a802, 0xc6de1b4d, 0xffe72b90, 0xe29458fb, 0xccb21d53, 0x511f0279, 0xd233af10, 0xb9b907b3, 0xc301b7ea, 0xd7b55600, 0x59db1f45, 0x3a386844, 0x7173318b, 0xd9ab6f85, 0x403abed7], [0x14698fc9, 0xcfe2cfc, 0x34ce5939, 0x40a41989, 0x9aba363c, 0xf5fa849, 0x8cc887d9, 0x99c045ab, 0xe8df250b, 0x1e7563f5, 0xd3b78407, 0x2624a5dc, 0x1954a966, 0x7d80ca6d, 0x4c8995c2, 0x789bd685]⟩,
   ⟨[0x83a05a40, 0xba8d9376, 0x572668d, 0xdd238c0e, 0xe0ad7eaa, 0x5b41446f, 0x63f9c64d, 0x6d1ad6b4, 0x8830ce1c, 0xf5fe99aa, 0xf2b77d66, 0x5bb1e7df, 0xf7e63961, 0x7382ca41, 0x555032c4, 0x56d6f922], [0xac45c214, 0xf9eaa991, 0x66146ea4, 0x2a4b7172, 0xd14553f5, 0x5667d61f, 0x3f7d071a, 0x996e8d8b, 0xe2229b97, 0xcb023ea5, 0x398ea3c6, 0xa446a954, 0xaaf9abf2, 0x733e3d79, 0x47503bbd, 0x2b4fae8e]⟩],
  [⟨[0xebefdc12, 0x24e9082d, 0x24fdcd6e, 0x86997ea9, 0x3145f3f, 0x15129188, 0xa16a167d, 0xc829d42c, 0xfdfacb6f, 0x55c0a31c, 0x5b93fb73, 0x1a728db4, 0x467a55d2, 0x7a187912, 0x1e8843d3, 0x7934c39c], [0xf35497aa, 0x688d9927, 0x5a745926, 0x2176e4e4, 0x4ff0da29, 0xa60f1ed7, 0xe66f5f74, 0xe1ef2081, 0x9ee53eff, 0xcde36e79, 0x855244ff, 0xfcd1d1bf, 0x464a4040, 0xd55cdb2e, 0x1e64bb0b, 0x39bc13f1]⟩,
   ⟨[0x65d70320, 0x828b3539, 0x954fe3cc, 0x921019c6, 0x39dfc1ea, 0xc2b142c8, 0xbad22a43, 0x7a619a1c, 0xd827c06e, 0xe08fa3ae, 0x88baa42f, 0xac645eff, 0x294f3582, 0x514723ba, 0xaa355fd2, 0x6fd17829], [0x11d05c79, 0x6366853c, 0x17d185c9, 0xe225500b, 0xfa47eada, 0xaeec2174, 0x6666332f, 0x9737ecc0, 0xe33aa72a, 0xd0638bc9, 0xf6cf4e24, 0x4889ab0d, 0x39e3190, 0x2912e4a0, 0xc035d955, 0x411cfb3c]⟩,
   ⟨[0xb3bd0d0, 0xe59d745b, 0x653222f, 0x62ab04f9, 0x43e0ec6c, 0xe6421bb7, 0x15e65b27, 0x6f3e4770, 0xd82704e6, 0x90fb7585, 0xe9a129df, 0xcf7fd882, 0xd3d0023a, 0xfa8e1b9d, 0xde4307e5, 0x12861b4a], [0xb86cf424, 0x9dc0d3d9, 0xc2dbe006, 0xcfc0a60f, 0x2b9f470a, 0x5933baa8, 0xcab8113b, 0x112f153c, 0x56b279c1, 0x1aeda340, 0xbe13dfa3, 0x1408a037, 0xc06d3674, 0x10d90850, 0xaf30ae4a, 0x3db6999e]⟩,
   ⟨[0x56348084, 0xab96f013, 0x8c167f42, 0x40395543, 0x2280feb8, 0xe1385c9f, 0x76d2c4aa, 0x36671625, 0x4d4d667b, 0x76e31344, 0xef0b171d, 0x906b5973, 0xebcca769, 0x229bccfa, 0x8a9a561c, 0x36462e60], [0x4fe428a6, 0xfd5116fd, 0xf3846007, 0xe92c088a, 0x218a0d1e, 0x8ac5f8be, 0xddf329ce, 0x59a97369, 0xcab484d5, 0xea2d262e, 0xbd10f3ec, 0x6f95e17a, 0xe08ddb7e, 0x6ffbec38, 0x6446bb5d, 0x55e8de21]⟩,
   ⟨[0xcb565ae, 0xa5d6141a, 0xf9091fe2, 0x8786b494, 0x1d6c9279, 0x89b1900f, 0xc21934c0, 0x425ad0f5, 0xe2201d3e, 0xf781fbf6, 0x61e0191d, 0x72100433, 0x5b3e5491, 0x186a3999, 0x95e49235, 0x6df058e6], [0x34559e42, 0x82d37e02, 0xa0e7f1d4, 0x4ae4a8ac, 0xb34aaed2, 0x9941a84c, 0x5484ece0, 0x4da92d32, 0xeb7c740e, 0x6f1fb58c, 0x4965b6cc, 0xec6fae86, 0x1ceff73b, 0x179e8480, 0x72724658, 0x58ed2bb3]⟩,
   ⟨[0xac30848e, 0xd6fa5a23, 0x53705571, 0xfe58e2d3, 0x47ef14e7, 0x43368f72, 0x694e6bb3, 0x7dda0f48, 0xe9b7cef9, 0xdfa9bf9, 0x9803203f, 0xa3bd4b23, 0xaa1b561c, 0x3f0eaf0d, 0x11c56c8f, 0x6e8678f3], [0xb4272d39, 0x4e574afb, 0x26a589e0, 0xdd9622a9, 0x18e2b544, 0xcf41d028, 0x479b717e, 0x7fe65a44, 0xabde58b1, 0x38d34c1f, 0x20e02ee5, 0x4a8b1a49, 0x26d927f1, 0x6c2c5af1, 0xce4d534a, 0x8e02884]⟩,
   ⟨[0x3c9034ce, 0xf4747773, 0xa8cda587, 0x92b208b8, 0xa8a5d6f6, 0xddb5a865, 0x9ffbbca, 0xe3c3150e, 0x71780dee, 0x120720d6, 0x1cb5e7e7, 0x6977608d, 0xdbe5697a, 0x52261203, 0x184e7b19, 0x1c88e9c4], [0x9927bfc6, 0x6be6c190, 0xf431a9e8, 0xa1452123, 0xb949ed5c, 0x62bc5bf4, 0x2bcf732c, 0xd57633c0, 0xae4563a, 0xa3723f7c, 0x31958ea, 0x5449afce, 0xa6580d6f, 0xe3bf9985, 0x6b471aa6, 0x34b0d320]⟩,
   ⟨[0x46bf771f, 0xee28e9fc, 0xf23b38e6, 0xdcd3c06e, 0x8d62d86b, 0x894e7864, 0xc0209fc3, 0xf226c4da, 0x6ec4d3b1, 0xeeb85a81, 0x3abec007, 0x837f8a03, 0x18c1a3ea, 0x622c40bc, 0x279c341a, 0x49a59cb2], [0xd38dc85b, 0xc3833aba, 0x3e303976, 0xc512b721, 0xa43ba4bf, 0x80cb1adf, 0x8fad6957, 0x6c8a1574, 0xa0dc03a1, 0xb5305ae5, 0xa78753f7, 0xa63fe0fc, 0x7d4eb934, 0x81c2bce1, 0xad66f6fb, 0x4ed73812]⟩,
   ⟨[0xca09a5d2, 0xac25ab81, 0xb6ee3d0d, 0x1e000efc, 0x148738a5, 0x7eda899f, 0x4abd3ca0, 0xee70dfb4, 0x371f70bd, 0xa9f18af3, 0x30e796bc, 0xa2d64fe4, 0x38943dc4, 0x77e42190, 0x6eb5cfc, 0x35aeb8a2], [0xda26db57, 0x95d36c2e, 0x3a546e88, 0xeef40f18, 0xe5d07294, 0xad4d846b, 0x95158ff2, 0x80be6ba8, 0xc85f84ea, 0xc15ac73f, 0x2044951e, 0xbafc3952, 0xa14c51ae, 0xea750e8d, 0x524fc6fa, 0x1817f004]⟩,
   ⟨[0x14555cd7, 0x9c835db3, 0x299196f6, 0x76a92fc0, 0x6618f1a6, 0x35cdf54d, 0xb3260002, 0x4b77e5a0, 0xa837bdb2, 0x321c2eaf, 0xd5d4a743, 0x559ae831, 0xe116e5cc, 0xeb18d7f, 0x1945e60e, 0x3fe7d292], [0x649d5551, 0x4ca61aef, 0x95257cc3, 0x7c3cfbff, 0x66a5d03b, 0x8af04a74, 0xfc3b143a, 0xa0c95ade, 0xa61b0143, 0x515258ce, 0x43a147bd, 0xf1959d4b, 0x43b761e4, 0xaae3ef4c, 0xbb8bea3a, 0x731f5d9e]⟩,
   ⟨[0x6283c8da, 0x483d5f55, 0xc067af22, 0xce48f6f, 0xcfb3fef8, 0xba767432, 0x463510b2, 0x1ad7f214, 0x7d448527, 0xdcfdb1a7, 0x119ba281, 0x3eefaedd, 0x7b6597ab, 0x9d5f2546, 0xb8ae2ac1, 0x3515e65], [0xa768a2e9, 0x91a17476, 0x1c0b8745, 0x921b21aa, 0xd1636fb2, 0xe1b0ab68, 0xa933bc5, 0x35af62c1, 0x6cca56f8, 0x24432c7b, 0xe142c3d6, 0x88976c8f, 0xc0eec621, 0x1bac1e5d, 0x7eb64467, 0x2760b03a]⟩,
   ⟨[0x535d9b1e, 0xcefcab97, 0xefc85889, 0x2ddf1964, 0x67fc56fe, 0x62276e02, 0x9ea27125, 0xd33d4e1f, 0x3eab0bfd, 0xd11f0726, 0xb4e5a283, 0xcef5bd00, 0xa5ecff20, 0x107cb2fb, 0x85321266, 0x1d110bec], [0xb9c05938, 0x5cd67bca, 0xec9ed6ba, 0x23b2fd6, 0xc44d68be, 0x473fef71, 0x24006876, 0x6db457a1, 0x5979901a, 0xa56c47e3, 0x6b786d, 0x971f5fe7, 0x8e3630e4, 0xd894b21c, 0xff0ad8ed, 0x56b8610d]⟩,
   ⟨[0x6a9ad8b6, 0xdc574806, 0xa33aa074, 0x39b1553a, 0x71ef2a51, 0x55233daa, 0xccc11692, 0x6186f6f0, 0x51e7f2b8, 0x949f7a8d, 0xbf2ff9b7, 0x9ed94f29, 0x3b90382d, 0x54ed16da, 0x4014335a, 0x65d0975], [0x7b737144, 0x95da36f2, 0xddd9c1e0, 0xe0a7c458, 0x69b64234, 0xdce291c, 0x8689def3, 0xf943b727, 0x24f80b28, 0x1cb8375c, 0x8902ec28, 0x60efaa29, 0x673f34af, 0x36bd90f, 0x2b1a208, 0x687b36fb]⟩,
   ⟨[0xc031ee5, 0x1704a598, 0x8288ec60, 0x325e6096, 0x16efc6f9, 0x588f58a1, 0x2c520574, 0xa1ea547f, 0x7fd9f40a, 0x2633cb8f, 0x3aa1c0dd, 0x736d8cfa, 0x92b3300e, 0x189e74da, 0x92172793, 0x6c92be18], [0xc6e25307, 0x3b67dadf, 0xccf961f7, 0x170bf45c, 0xb2c0629e, 0xf07f48b5, 0x974f7169, 0xacb40994, 0x871177c5, 0x29ad746c, 0xe3ae7857, 0x1ad449e2, 0xae9be21f, 0xafb63cb9, 0xb08faeec, 0xe6c676c]⟩,
   ⟨[0x60cabc21, 0xa60e0d9f, 0x8ba79177, 0xbdfc43cf, 0x7beeccf8, 0x8362d84b, 0x29f8fbe4, 0xcc9e6ba, 0x4801bf01, 0xca90958a, 0xf13c6356, 0xcb84005e, 0x90ae5ab9, 0x9ca6408b, 0xe668357c, 0x293582f2], [0xffceb4f6, 0xaa3a680a, 0xf18508a5, 0x19ce2d54, 0xf430a62c, 0x74027ba5, 0xdcb846d8, 0x7248cb8e, 0x3d3779e2, 0x608f15e8, 0x52bb6633, 0x21b8a438, 0xa95bde4f, 0x64b4c82e, 0xca13d8b1, 0x75169f73]⟩,
   ⟨[0x7435d441, 0xdc6c53c9, 0x630885a0, 0x621030cd, 0x4ca9bbe8, 0x9f761c57, 0x89453166, 0x3cbd7b51, 0x53eed18d, 0xe80014e4, 0xfd48c287, 0xab31fe34, 0xb1f2c06, 0xb908aa72, 0xda592359, 0x2a849d2e], [0x9b7da75a, 0x688daa1b, 0x42d4659b, 0x779b963b, 0xda7f5e1, 0x44bccbe1, 0xe283a19, 0x96f4fe4e, 0xf532628, 0x239f78, 0xb2bd3f1e, 0xa8e1a47f, 0x49d504ad, 0x23d8f150, 0xa818fb1a, 0x36f4d7ad]⟩],
  [⟨[0x6fa6665a, 0xed7aac76, 0xcd7abc00, 0x593fd44f, 0xe5940ebe, 0xb70daa5d, 0xe6ceb5b5, 0xbbd56469, 0x4ec6ec19, 0x17b54a10, 0xf288553f, 0x2411f294, 0x81534194, 0x1082082, 0x98f85e1e, 0x3cffcf3f], [0x7e62220, 0xb82b0fd, 0x50f91b0e, 0x99b5cc19, 0x3ae5c675, 0x2c60f938, 0xf42e3eea, 0x6a25b099, 0x329d208c, 0x498948a8, 0x6a343691, 0x45226e62, 0x8b8e9c2d, 0x53643f6, 0x4a938da8, 0x56e1e564]⟩,
   ⟨[0x2242a19c, 0x144da678, 0xc072e8a2, 0x860a384, 0x318a08b7, 0xd782a875, 0x8d318c54, 0xac99802e, 0x307da17a, 0x329437a2, 0x6696dc0f, 0x35656a12, 0xe2152828, 0xc5a9914a, 0x841c814b, 0x3bcbd2fc], [0x590c6fc2, 0x7d2fcf55, 0x6197dabe, 0xcccf4315, 0xe2eb665, 0xf4701c36, 0xe9400a11, 0x9d4f5a7c, 0x2f49f529, 0x815c6218, 0xb015260a, 0x264a9bef, 0x177e94ab, 0x279a03b8, 0xf6e2518a, 0x115481e6]⟩,
   ⟨[0xbb65b1c1, 0x2fe0c370, 0xaabd8550, 0x620fc63e, 0x9660303a, 0xa6eda03f, 0x802b6899, 0xc15fd5c5, 0x30fd19a1, 0x6dfbbca5, 0xc5394aab, 0x2bc0dda1, 0xcf41b04, 0xfc619634, 0x7dbcb198, 0x64ddf00e], [0x92602d0b, 0x78b289f6, 0xe4a24732, 0x123cc6a5, 0x70913278, 0x5f2db53b, 0xc27eac92, 0xd55ae856, 0x85696ba, 0xcc82e112, 0x67f01774, 0xa421c179, 0xe602baf7, 0x7deef7fd, 0x35e94ada, 0xa730b3]⟩,
   ⟨[0x1dac6f8b, 0x586d8dc8, 0x18f1fe48, 0x89a56ac6, 0xf2a8bfa5, 0x51231a77, 0xca562e8c, 0xd36be5fe, 0x9a6268d9, 0x5dfe328f, 0x781fa0b4, 0x3110144c, 0x7acbe702, 0x6a18a190, 0xd70c4b5f, 0x68f941c2], [0xa19654d, 0xce3c1de3, 0x49ad2799, 0xce96c000, 0x6e913ee, 0x9ad7b0f3, 0x472a1c37, 0x625c4fc1, 0x967bbd4d, 0x1e25e3ac, 0x2042c162, 0xe516cd88, 0xc3197e40, 0x1483a10e, 0x84e5faed, 0x60815a8a]⟩,
   ⟨[0xd1313b07, 0x3413eea8, 0x49bc14b0, 0x4b6c2ccf, 0xc33be839, 0x56c78c84, 0xdc481c6, 0x980f4f, 0x5e96bae7, 0xa34d712c, 0xeb0574f5, 0xea386c4a, 0x6bb4dc04, 0x834334ab, 0x47404a42, 0x140f2209], [0xcc6f8d14, 0x970b7de3, 0xccd6a840, 0x7c9a38e9, 0xa63faf90, 0x7c1c4638, 0x1f10834e, 0x36afea84, 0x15765f2a, 0xa9aa4a15, 0xd9240c98, 0xb20b2249, 0xd03abc25, 0x20116417, 0x37a8893d, 0x69b34300]⟩,
   ⟨[0x1021f8ca, 0x710fb075, 0x64008516, 0xf90919dd, 0x2ccc8ffc, 0xb0ed3172, 0x78988c41, 0xc6adc85b, 0xa1b81a9, 0x1cde6a9d, 0xc80cac9e, 0x9abc5114, 0x43a7b1a7, 0x877e6082, 0x51bd9782, 0xca1f0d1], [0x6e6aacb7, 0xfbb662bb, 0x96cd1a74, 0xdcab0d77, 0xdc56300e, 0x603f2717, 0xfe92f7e4, 0x327251b0, 0x7031603a, 0x7e0cbed, 0xd04c19fd, 0xa0f296ec, 0xb8c5e0ab, 0x3296bf9b, 0x49e5e7b6, 0x41e72ddb]⟩,
   ⟨[0xce99c0c5, 0x47e9562c, 0xba5372bf, 0x4c5fd161, 0x5c808664, 0x5d1b7b1, 0x539f8180, 0x9dbe76b6, 0xddbd7bc3, 0x646c3ddf, 0x97376739, 0x6032b96, 0x696bda3d, 0xb71dd971, 0x1d340fd0, 0x75061eb8], [0xe6a7dca5, 0x6fd064fd, 0x8db01de3, 0x79a31650, 0xf6483911, 0xb1b65a8d, 0xa9de2c37, 0xaf2bbe1c, 0x85cb42c5, 0x6b663c9e, 0xb583e78e, 0x464fedfe, 0xffdf93cb, 0x393c00f8, 0x9f96cf15, 0x61cc9a6d]⟩,
   ⟨[0xca774807, 0x40edc986, 0x4c334c01, 0x8b2a531c, 0xceb21fd6, 0x72d378c4, 0x3833d841, 0x169c54e4, 0x82fe513f, 0xcc830e8e, 0xabf34dd7, 0xbdc4ecd7, 0xaedd9ff5, 0xb5349484, 0xa404055b, 0x12d7adb3], [0x637b7c24, 0x88027c00, 0xc0eb319d, 0x755587a6, 0x2027178a, 0x3f24e32f, 0xa4fe8f8d, 0xb912054e, 0x5c9a68d6, 0x6aaca911, 0x235cf842, 0x14772328, 0xc0175f8, 0x6d3020a8, 0x3e0f7418, 0x587768a7]⟩,
   ⟨[0x1154c74a, 0x57e3a1f9, 0xb85fb8e8, 0x80157ff5, 0xee5defec, 0xbedb658d, 0x67e9a0e, 0x65c0aa98, 0x229a5289, 0xaf9a507a, 0xf954dd94, 0x6a13acf0, 0x53dc4c19, 0xb5f3a18d, 0x85af938f, 0x6aeb3f5], [0x8c9bb087, 0x503f0622, 0xe3fea015, 0xea19ac85, 0x403fb8fc, 0xe446cd70, 0xdf5b398f, 0x1bddc810, 0xad2caec6, 0xcaf818f, 0x807ab004, 0x6983e52, 0x79428650, 0xa6b33e3c, 0x231bae71, 0x182e3d46]⟩,
   ⟨[0xb309dc4b, 0xaf54b735, 0x805890f1, 0x494f7441, 0xf87271f6, 0x3ccd5f0c, 0x7638102b, 0x2914763b, 0xfd258079, 0x3ca50d01, 0x77cdd6a9, 0x6d9a3d47, 0x1f4a05ce, 0xd81373b8, 0xccd443ed, 0x16b258db], [0xa3805fee, 0xc9d4009f, 0x225fa57d, 0x5ec56730, 0xac17e4c0, 0x4a51a79b, 0xe7750942, 0xb389fba3, 0x1ab7e8be, 0x2b137d6e, 0xd8c26efe, 0x3953702a, 0xb79f2828, 0x6d86ed3e, 0x6d6a62c0, 0x36eceee8]⟩,
   ⟨[0x6b8b9b02, 0xf97e85fb, 0xc6f128f6, 0x3319d570, 0xb4ca56dd, 0xdab74e23, 0x81fcbb47, 0x50ca71ef, 0xaad7f910, 0xbfc19f2e, 0xdb3772f4, 0x96650f9b, 0xb6f26494, 0x5823f134, 0xcbfbd2e3, 0x1b899b3e], [0xf6cf8f8a, 0xd1589c42, 0x34ddb625, 0x3168aaf5, 0x72abda08, 0x4c730535, 0xf82913c3, 0x8b1c24c7, 0x239fbcd3, 0xd7d80f27, 0x6b7c205d, 0xb18b4f05, 0xd92056a6, 0x2864763f, 0xbcdb3022, 0xb3ddc7b]⟩,
   ⟨[0x207f772b, 0x1ab037d6, 0x88767bfa, 0xf050dd34, 0x79abf05e, 0xfef182ff, 0x4b25067b, 0xaafcfd0f, 0x34e155b0, 0x1eb76235, 0x65cef7a6, 0xa3b921c9, 0xd9216b0a, 0x6cbd50b3, 0x9e578a9a, 0x3e298a71], [0x1cce9059, 0xc0dee851, 0xeba49de2, 0x397344bb, 0xb08513de, 0x45a60a85, 0xf0d07f9b, 0x55d314f9, 0x12d12611, 0xbf6d4d51, 0x30a7e8de, 0x49f9bcf1, 0x5435d109, 0xdb0a9058, 0xf706cf2, 0x4de5c43f]⟩,
   ⟨[0x70b6d62b, 0x7ff298d6, 0xe67688d3, 0xb2ff0ad4, 0x805652bd, 0x5e63a6b2, 0xad74922a, 0x32d81219, 0xa9cccc31, 0x77d2e3a3, 0x2cf2eee0, 0x31d571b, 0x4fc7c9ea, 0x471653bd, 0xafc2a13, 0x2322cc68], [0x8c6d70e, 0x3d152eff, 0xbec5dbd9, 0xbec9cbcf, 0x6496310f, 0x41bd4962, 0xb1a88e6b, 0xd23fc983, 0x5ef464e2, 0x5b622edc, 0xffcc97bb, 0xc6500add, 0xaa783ff4, 0xf2ccd3ef, 0x7ce05cc1, 0x51ad3604]⟩,
   ⟨[0x24c48e44, 0x4796ee83, 0xbba7bc62, 0xb4d448b0, 0x1c32b713, 0x2f356e4a, 0x32050781, 0x980d6dca, 0xb5f6c099, 0xb52b1826, 0xa144d7f5, 0x1f7d68d, 0xa23999cb, 0x9abc596, 0x66246640, 0x17c069dd], [0x1f7e37a6, 0xb7d7f96c, 0xe46aad16, 0x57e198c0, 0xd1c0df8c, 0xb2088df9, 0x3fdec190, 0xcc38ee4, 0xfb2d9b68, 0x68dd1fc4, 0xad1d73c0, 0xad94674, 0x1b92b955, 0x9529c7df, 0xd141f7c, 0x6711e361]⟩,
   ⟨[0x3b87c175, 0x1b1a5159, 0x29ff8f9, 0x7f62a639, 0xc69adefb, 0xa2e37638, 0x58e309a0, 0x3ac773c6, 0x22efd710, 0x9e7a85fd, 0xa60e5275, 0xd29e2f3d, 0x1163c9ed, 0xc4734b9b, 0x9cbeee57, 0x9d3204a], [0xb8a97aa, 0xb2339f8d, 0x7ae97b4d, 0xc19c67a6, 0x65425033, 0x8c0e823f, 0x8b186d7f, 0x447f972a, 0x32a6c164, 0x43385e29, 0xe9e78569, 0x95049508, 0xa074b68f, 0x2af8c598, 0x5cd5e2f7, 0x18ac97b8]⟩,
   ⟨[0x1deb288, 0xfae61589, 0x885b8ea2, 0x33f684f3, 0xcfa425b5, 0x89a90618, 0xfbbf5b15, 0x8f5d3c2e, 0xc2b6cb28, 0x379803c6, 0x990ce2db, 0xfe683ea3, 0x7b6e4e0c, 0xc1b3c21f, 0xea3513dc, 0x6f152c2e], [0x9ab792ca, 0x23505338, 0x282a67af, 0xc64c7f27, 0x6498b24f, 0x6fcbde65, 0xa1612a06, 0x6fb7f7fc, 0x45c74402, 0xfd575b9f, 0xa709a516, 0x6ead0805, 0xd4ef066b, 0xca6208ae, 0x93954e65, 0x23880ece]⟩],
  [⟨[0x7fb1977a, 0x2b13b8b8, 0x21b7871a, 0xea6510ad, 0x882483c7, 0xdbdcb0e8, 0x4c379245, 0x5e2e9664, 0xebaf2c56, 0x581d4429, 0xca79fccf, 0xa929cbb0, 0x2009377f, 0xe74d3d66, 0x610cc0d1, 0x664661a5], [0x570237a, 0x1f778c19, 0x1769a370, 0x905aeb86, 0xd6c06aee, 0xf51b013b, 0x43efb668, 0xdf0d8905, 0x11e4d5da, 0xdd082bc3, 0xd7be0c1d, 0x58aa1283, 0x941e9230, 0x97f20d6b, 0x8bb614ad, 0x486c960c]⟩,
   ⟨[0x4ce9052b, 0xb573b94, 0xd78f10e5, 0x88b5c4cb, 0x77dca0eb, 0xb131989b, 0x81e63c3b, 0x7f405d80, 0x3818ca2d, 0xcc31f185, 0xfe177ea8, 0x42f386a2, 0x9d888b2a, 0x1b7dd56e, 0xc8e873e8, 0x3a6d84d3], [0x7e3fbcd6, 0xbcfef877, 0xb36f3f68, 0x5da67b53, 0x5827fe5a, 0xe840229a, 0xb989407b, 0x17689956, 0xafe27325, 0xad6e3f87, 0xdb1e1a3e, 0x62027c70, 0x7ebb4747, 0x86a2c909, 0x4a919d6b, 0x47adc4cc]⟩,
   ⟨[0xa4ca0f15, 0x92381565, 0xc08705db, 0x67fb0c76, 0x3ba6d54, 0x661da004, 0x77c5c4f7, 0xf875ef24, 0x4157a282, 0x769b11c, 0xfaf534c6, 0x8adb10ac, 0x9ccd6ab2, 0x312147b, 0xd67a443f, 0x75390c00], [0x21a1047c, 0xf5a29a0, 0x83a146b8, 0xcabb96fb, 0x2a3f2f48, 0x1375356a, 0x83c57db4, 0xdeab7544, 0xf5afa2f1, 0x1ab71412, 0x73b58749, 0x21d94b48, 0xff2f369a, 0xba87e6d5, 0xdbae0e08, 0x4b3b90b6]⟩,
   ⟨[0x9116f02b, 0xb8648e3f, 0xcef02b4f, 0xa5e5a03b, 0xa70f456a, 0x21eb9835, 0xc8a7c423, 0x44865319, 0xbcd6c0ad, 0x57db3941, 0x7d371806, 0x20d97a3a, 0xf8a3d51, 0xbe61aa4f, 0x13cb7d2b, 0x7a6e0bba], [0xeea5d6fb, 0xb3b98673, 0x87b03bac, 0x534eb45f, 0xa9508557, 0x6ceb244f, 0xf209cc15, 0xa47fbac7, 0x1fc65c19, 0x41ebf99d, 0x7341650f, 0xd1477a86, 0xb361e0f8, 0xc4e6eb8e, 0xd2b3d548, 0x68faf82e]⟩,
   ⟨[0xf92b039b, 0xb9cca467, 0xe6f2a2b, 0x9f7180af, 0xada011f8, 0xc3084870, 0x882d7a38, 0xc814d1dc, 0xd51c1d14, 0x3a145072, 0xd70f8b08, 0x595ac55b, 0x71efed45, 0x67308d05, 0x22dbfa33, 0x2c660b98], [0xaf8f2980, 0xc8eb4eec, 0x6145ab09, 0xbc8f2d72, 0xc22d5e84, 0x1a0a9d53, 0x9ecd643e, 0x8e646008, 0xb541e2d8, 0x6c704f66, 0x31995198, 0xeed597aa, 0x619126c2, 0xb9032fa3, 0xb0a08f01, 0xca4aeab]⟩,
   ⟨[0xdb421144, 0xf48a003d, 0x9885a445, 0x4a7fa592, 0x8e8fa3db, 0x40aa1c2, 0x91a15b11, 0xce94d874, 0xf0e875b7, 0x79490f6d, 0x70318e86, 0x743a531d, 0xc4630cd1, 0xe88ca2af, 0xf5c5d4ad, 0x6e2fe529], [0xfe062d25, 0x619a4f46, 0xbd747c4f, 0xce1b5fad, 0x3d512728, 0x3c428366, 0x71afaec7, 0x7fe87908, 0x3db8315e, 0xb7006310, 0x7195e9b1, 0x97a0397b, 0x84870127, 0x51eb939f, 0x517a32ee, 0x768a3cd7]⟩,
   ⟨[0x257e424f, 0x25234ffa, 0xad164952, 0x5d80ace8, 0x7b4c0f5d, 0x4b15f386, 0xf95006bd, 0x71963894, 0x69963c75, 0x4781b778, 0xfd339850, 0xdecd94fb, 0x11a9d79c, 0x1533454e, 0x92bfca33, 0x3b17ec40], [0x12a30834, 0x58d0672a, 0x3e66f5d6, 0x807b665b, 0xb164b077, 0xcd732ae8, 0xf1f732be, 0xed26f82e, 0x75a7b899, 0x4e65cb2e, 0x3c72f22e, 0x2ea2be74, 0x4068cefe, 0x60cd26f6, 0x1febefaa, 0x63734ac0]⟩,
   ⟨[0xe7203401, 0x290e6008, 0xa67a0f47, 0x3497cea1, 0x641f5b86, 0xb079862c, 0x7a0d51d1, 0xdf3cb483, 0xbc8d25b7, 0x4cc0dcd1, 0xbdfac20f, 0x1034f5ff, 0x6881dbfb, 0xc5896f31, 0x68a39778, 0x2c6bd4a1], [0xf5cedbe3, 0x6fab7060, 0xf7141245, 0xc51f3245, 0xc3ef1eef, 0xa3ffa5a4, 0x206172d5, 0x2fc2a0c7, 0x94e55d7, 0x6616fcff, 0x22ea071f, 0xc3f309ff, 0xdd267faa, 0x685aadb, 0x6bc770c0, 0xae3722a]⟩,
   ⟨[0xe67270fb, 0x7b11dd6a, 0x16905d, 0x128a351, 0xbfe007a0, 0x9ce64782, 0x7714e091, 0x7324986d, 0x269e4410, 0x3e796b16, 0x9a97ad36, 0x707a148c, 0x87d5b9ac, 0xbe29a340, 0xf0d882b4, 0x2f92e67e], [0x57636c75, 0xb9f06642, 0xfb7f18eb, 0xa803ef99, 0x1e9bf04a, 0x4b8a1d79, 0x62068d6, 0x4c43526d, 0x800f0ff9, 0xca59cff0, 0xe4389a8e, 0x8be857c3, 0x5383ede8, 0x5042cf56, 0xe02f40e, 0x6791c9a]⟩,
   ⟨[0xf5d076b4, 0x18a74ace, 0xe41ec2cf, 0x50c2161, 0x484f2cd0, 0xecc5823d, 0xaa7c332a, 0x63b7b1bd, 0xabee9cd9, 0xac6a274d, 0x7b7a7db1, 0xeac874f8, 0x734bea81, 0xfa4b8e8, 0x243d05ba, 0x1ada0b97], [0x822c8bc9, 0x724c084f, 0xa117425f, 0xae697a1b, 0x2cd06676, 0x39172804, 0x23213e25, 0x87b4f920, 0xfc373ed4, 0xcba8c7a1, 0xd2f10fd2, 0xdac6b96b, 0xfd265cff, 0xcc175798, 0xb731090a, 0x1631d89c]⟩,
   ⟨[0x6d19cb56, 0xb639a208, 0x42a88733, 0x78f0f353, 0xe0323b20, 0xc6bc527b, 0x6de64954, 0x3406cedd, 0xbaf8a735, 0xaa89168b, 0x2d7b04ab, 0x7f68cea0, 0x5eec36d4, 0x6ead81b2, 0xbbce0784, 0x1c41724e], [0x831bee83, 0xda5383ad, 0xf3c29716, 0xa8b7bee3, 0x35aca35b, 0x5b7e0540, 0xb8f21324, 0x8f006f3f, 0xa7b700cb, 0x915849f8, 0xa455a08b, 0x77c5b34d, 0xd6d73c0b, 0x13ba7c32, 0x6936ac88, 0x65d599c9]⟩,
   ⟨[0x4da5fff8, 0xf636cfe8, 0xd1e6e947, 0xe5fd754e, 0x388a72f1, 0x8f960362, 0x381c1c38, 0x95b55a07, 0x1df2f860, 0x31e1d02d, 0x12ea25f5, 0xc03243c7, 0xc28c0062, 0x5fd87b58, 0x9d950661, 0x5769e94d], [0x6509e6e7, 0xf88c7ccf, 0xd3971a21, 0x8a021bab, 0x9b284c2f, 0x2655b4aa, 0xc7050955, 0xc3e14580, 0x90e60ddf, 0x63b332e2, 0xf1cd1b51, 0x6ab86d32, 0x13bc748e, 0x9896ac11, 0x40fc1ebc, 0x516d4d4a]⟩,
   ⟨[0x8f7b417d, 0xc27dbb0a, 0x770cf92d, 0xee24827a, 0x5f9a2a6b, 0x22e08b64, 0xe10f76a1, 0xae739513, 0xff544277, 0xec6e2d9d, 0x740db83a, 0x470c22b7, 0xee4f1e82, 0x643b7953, 0x5556fb59, 0x66409497], [0x728114e6, 0x4c15c4cb, 0x1f29ef7f, 0xeff1bb9f, 0x259562ed, 0x8e00b92a, 0x9838d769, 0xf28b146c, 0x206622cc, 0x3d7c8fff, 0x86457fad, 0xd521181d, 0x9d9a3085, 0xbf56f663, 0xa24b415a, 0x11ba1fed]⟩,
   ⟨[0x35701c5, 0x149597f7, 0x6361cc7e, 0x55b1c4b, 0xc221af72, 0x10df1572, 0xc3d3a167, 0x6941b1e9, 0x38d00af6, 0x29985cab, 0x19e385f7, 0xdd9b8391, 0xf2e81932, 0x65268e33, 0x5c07cef9, 0x4fc87273], [0xea012b70, 0xe1644429, 0x4bdf6ace, 0x639fa874, 0xf65480cf, 0x7bae6aff, 0x606eff3a, 0xb9ca15af, 0xc04c5263, 0x10f5918a, 0xed3d0f98, 0x50f27e68, 0x3134d7fa, 0x647c1ad3, 0xf869eefb, 0x8ef017d]⟩,
   ⟨[0xf229a34b, 0xd474b5fd, 0x29e0a164, 0x3819d4e, 0x8d0910b9, 0xd24139a, 0x9c2d8e8d, 0xb4f45c8d, 0x2f21718a, 0x10e4bea2, 0x63da06e8, 0xd3d7ecde, 0xf148b0ed, 0xb2aab06a, 0xaabd0f7a, 0x630152b1], [0x3b1563b4, 0xcf4d05c2, 0x6f355349, 0xbfa58b4e, 0x4d1a769, 0x2fa4a29c, 0x1aeda992, 0xf4e15f9d, 0x877819c9, 0xfdabceb, 0xc3edb0a3, 0x5edfcc1c, 0xd1dbcf40, 0x76625dc7, 0x2a7bd819, 0x3e558cf0]⟩,
   ⟨[0x7a883a0, 0x7c7924f, 0x10ea080, 0x18484807, 0xb6b2b992, 0xdf8602fe, 0xaa03aa11, 0x38a2efdc, 0x19b2bb14, 0x60b00311, 0x15e28bf3, 0x9e12e7fe, 0xbb0271cd, 0x2ac0917b, 0x1558faad, 0x24126eae], [0x19170edf, 0x2eb303ef, 0xf5779ad2, 0x6945946b, 0x31b7df96, 0xe4e5635a, 0xd6ac3252, 0x2b371d13, 0x8116c539, 0x38e78198, 0x6c89faf6, 0x76df4a2c, 0x6f233984, 0xdfb6755d, 0xd382985d, 0xcbf63f6]⟩],
  [⟨[0x56b39fa7, 0x936d53bc, 0x511d5744, 0x751274ec, 0xf29d41c2, 0xdaf4432a, 0x14f8954, 0x717a68c1, 0x736f4024, 0x6d5d3f05, 0x12d037d9, 0x52e785f8, 0x2ca06c4, 0xc04cba19, 0x9259a368, 0x43207806], [0x2be51135, 0x1211482b, 0xe4d32066, 0x5b473f6e, 0x4ade99fc, 0x91991c8e, 0x4865136b, 0x124378e8, 0xbfffc5cc, 0xaf791646, 0x36d38141, 0xb7dba115, 0x5bd595b7, 0xe879426, 0xcacc032e, 0x39b7d642]⟩,
   ⟨[0xd756ce1d, 0x76ace7c8, 0xf8a89f09, 0x4bec8290, 0x690139da, 0xe8fe848c, 0x6a541656, 0x8c5cb5cc, 0xa79f1a2b, 0x6127bb25, 0xe17d0549, 0x955551cc, 0x58e7c3fd, 0x648a32e9, 0xa60d449c, 0x366035a5], [0x67a48368, 0xa4cf0ccb, 0xbe344234, 0xcf7d74f7, 0x8cffccce, 0x6dffb4, 0xfb55072b, 0xbbc66664, 0x5efd8af6, 0xaa51ddd1, 0x6f004c47, 0x88d0cfd4, 0xd97bbb13, 0xd18c2dbf, 0x1e7e68d2, 0x5e598200]⟩,
   ⟨[0x466b58d2, 0xff9fb488, 0xa8041078, 0x153a751d, 0xd5817adf, 0xd7e96cb3, 0x511775d8, 0x56a7a135, 0x77e5de7a, 0xb48fb406, 0x997a6721, 0x4de670fb, 0x86efbada, 0x446019b5, 0xfa535082, 0x403cc005], [0xc2fa986d, 0xf85bfee2, 0xe0c320b, 0xf2b77b88, 0x8fe98fa0, 0xaefe1972, 0xe8db8196, 0x291fd9c7, 0xf579d9d0, 0x7c3ab36d, 0x764622dd, 0x7f202bef, 0x804cebff, 0xdfd4de34, 0x683b7281, 0x25ca634e]⟩,
   ⟨[0xeeb585de, 0x2e3bccc2, 0x9c7ab9d7, 0x728bad6d, 0x5c38cdf1, 0xe298bc83, 0xb610385e, 0xd88d423, 0x71744e3a, 0x5710f235, 0x9681cff4, 0xd9312cc9, 0xf3d5b3bc, 0x1c46ab4a, 0xe2631926, 0x48be540b], [0x5ccdf14d, 0xbfab35a1, 0xd778f586, 0x16c3216c, 0x4128bb2, 0x2a604800, 0xa7d2e1aa, 0x5505889, 0x1de7c7b4, 0xbe8b94be, 0x5bb8dec, 0x53e72ebf, 0x2870c597, 0x1a38c5da, 0xdd36b123, 0x76f0e77b]⟩,
   ⟨[0x83b68dc3, 0xc13d1e8a, 0xa93d168b, 0x5f7291ef, 0xca88f0f6, 0xd1c56274, 0x868e3651, 0x58edfc8c, 0x70692949, 0x9d8f42af, 0x81b6e052, 0x65903c33, 0x262e1f70, 0xad71b078, 0xc40dc22f, 0x7a60d3bb], [0xba1fc54f, 0x6b64f0db, 0x81f84a0b, 0x6ddb148c, 0x53955b40, 0xcfbd9662, 0x9b35db3b, 0x67d49d07, 0xa8ef7db2, 0x6ed336dd, 0x3f2a331, 0x7aaf4b8a, 0x5c3873ca, 0x9751dbe1, 0x8193a7ed, 0x78479b10]⟩,
   ⟨[0x487db2bf, 0xb05edd9a, 0x58f7e778, 0xf9051591, 0xdc23cbf4, 0xbd643be6, 0xc1ea2427, 0xbce094ec, 0x4eb1bd95, 0x2a3f3b4b, 0x6f5e1428, 0xba8fc9dc, 0x9f053047, 0x7dc28c94, 0xc553dc91, 0x58117a0c], [0xd4a6137c, 0x4888b1e8, 0xf8dcbd03, 0x5dc05984, 0xd2f55576, 0xae2c8657, 0xfc4da255, 0x54721bef, 0x802c9ebf, 0xa326693, 0x91186df0, 0xa33294aa, 0xb822390d, 0x716bd76f, 0x7c4aa61b, 0x7f023c0b]⟩,
   ⟨[0x46a8017, 0x6506da35, 0xf785115e, 0x23083c16, 0x24051bbd, 0x78581137, 0x5088ebfe, 0xcd36d48f, 0x5e542acc, 0x23f7f0a3, 0x7d015b1e, 0x72018795, 0x38d2d742, 0xa69e68d4, 0x23b5c20, 0x36808a3b], [0x1feab6d8, 0x660d03d6, 0x58d53e94, 0x77a1e185, 0x74024e57, 0x67425f4e, 0xcc26788, 0x3b916008, 0xe3643998, 0xc7d287e, 0x27b3b31f, 0xb0d98dd1, 0xbb980cfc, 0xba621971, 0x404a2de1, 0x77591087]⟩,
   ⟨[0xc15c3d38, 0xb768c63d, 0x54dba325, 0x281aec4d, 0x50c9b1f3, 0xbb51d2e4, 0xe7268c94, 0x86bb9bb, 0xc7ed37a, 0x9e0af351, 0x39145aa3, 0xdbc88528, 0xb1ab786c, 0xa70373be, 0xa73090a, 0x273ac4d9], [0xc280e9f5, 0xd618db6a, 0xa9685a4b, 0x9d874643, 0x8a9c1951, 0x7ef799b4, 0xffba36bb, 0xaeae400c, 0x145dc10a, 0x889119cb, 0x1bf7ae53, 0x8b052ff, 0xe3f04b93, 0xdef76ec0, 0x6dc2cc5, 0x35a13bb2]⟩,
   ⟨[0x613c9fd0, 0x97c54e1c, 0x42581f50, 0x7d4beb41, 0x5bca7caf, 0x9401f44a, 0x36115d18, 0x5fd7e0b0, 0xcd0dce05, 0x714fc514, 0x2ab3265e, 0xf3b73708, 0x8798ea8b, 0x118fb47a, 0xfe5c2bff, 0x79a1f4cd], [0x103ff4dc, 0xc0d3abaa, 0x146d121c, 0xf5d504ed, 0x842caba1, 0x38b7419b, 0x907320f6, 0xe1730788, 0xe111875f, 0x37793b, 0xaab7249, 0x715042ea, 0x15630b39, 0xf57d27ef, 0x5d0153ca, 0x3b503330]⟩,
   ⟨[0xc8aad5e3, 0x44e75f39, 0x506b9c14, 0x3890e8ae, 0x38915d2f, 0xdda7d91f, 0x5f28e467, 0x412802b8, 0x711b51dc, 0x8ff3e17, 0x81c96d4a, 0xf23c1ef, 0x57511a7e, 0x7b8e28a1, 0x42c2bacf, 0x60200370], [0x8559dc01, 0x5457aa66, 0xbb083219, 0xdb0cbc6f, 0xf981be19, 0x316c4876, 0x9b98d6ac, 0xa04412b9, 0x2d95c876, 0x20964cb8, 0x51009c2c, 0xf643f29e, 0x30c43dd3, 0x5316d85a, 0x46a82d48, 0x104eb0c8]⟩,
   ⟨[0xb183769, 0xc05add9a, 0x653e726a, 0x14e8ec7a, 0x8d457375, 0xe5311f87, 0x25d9120d, 0xcc1585a8, 0x71a945bc, 0x4f39be3, 0x18298210, 0xfbfad374, 0x3a9d2053, 0x95f0bd1e, 0xc056d70e, 0x1eaeefed], [0x1e6e949a, 0x3274833c, 0xc1d152e6, 0xa38ea2ca, 0x1b9a48ba, 0xe77a1027, 0x69b03ed3, 0xd44cf886, 0x2d9d2b8f, 0xb52d35e7, 0xf99bd52b, 0xfa67f927, 0xdf337872, 0x3910d907, 0x90bf7a7f, 0x53e3909c]⟩,
   ⟨[0x8fc5b40a, 0xc558db4e, 0x7511657e, 0x330982a3, 0xb883053, 0x81a47621, 0x3f3db1d4, 0xb1f53471, 0xc804e24, 0x8a2b835a, 0x3012783b, 0xf8537a45, 0x9dc2a56a, 0xc761fc41, 0x2c12be25, 0x50369dcb], [0xca00d808, 0x19877d98, 0x1da7bd8f, 0x305586b5, 0xfb6f9e7, 0x683bf46e, 0x7e53ecb1, 0xf23f5457, 0x17ee25e8, 0xa09a0901, 0x5baa52ec, 0x61af9305, 0xa8104024, 0xc12b74be, 0x60a876e3, 0x6bdabbaa]⟩,
   ⟨[0x438800f3, 0xec8adda, 0x4fbf0259, 0xa47197e6, 0x1767f99f, 0x324e0696, 0xe440710a, 0xe455bc2, 0x7a5984f7, 0xfe231689, 0x3cf323d8, 0x7706d5c7, 0xffc9fb5e, 0x6dfe4b08, 0x8f9d5207, 0x5e912ec7], [0xd7d1ac99, 0x9b71034d, 0x33d5abf4, 0x5786b8ad, 0x426e2b80, 0x70e625b7, 0x6a33883f, 0x71d53abb, 0xaa10aa82, 0xb42de25a, 0xc313c9f3, 0x709b3cdf, 0x99a04bd3, 0x49f3bbc7, 0x3390b190, 0x5b56d9bb]⟩,
   ⟨[0x5dae0b4, 0xa4d655e5, 0x7016ede7, 0x3402db14, 0x117097dc, 0x58d4efc5, 0x61ae9fdc, 0x4f397afc, 0x85de0e4a, 0x3ee32fbe, 0x18f9da9b, 0xe5c94100, 0x30778d74, 0x6248b570, 0xff879b98, 0x569d70c9], [0x79a7786f, 0x385fd4c8, 0x92c6e962, 0x779353b9, 0x5aa82e08, 0x9c9103fb, 0xec3b37d1, 0x128bd7dd, 0x98ae8c82, 0xcc0376f8, 0x289afb7d, 0xdd33b1a3, 0xf1d2f3ac, 0x2b3a6be5, 0x58c1dca0, 0x2b342e8f]⟩,
   ⟨[0x924940fc, 0x4ada9f0f, 0xbd4e799e, 0x636260e5, 0x85ecd23f, 0x10650fc8, 0x32ae8105, 0x4765f05, 0xdeebfaf2, 0x22f515e9, 0xea6ed3ba, 0xfb6611b1, 0xb116a647, 0x2d260305, 0xceb63ed4, 0x540a895a], [0x65640bd2, 0xa5c897ec, 0x4eb90b65, 0x1d82ad21, 0xa2bd6c71, 0x2a00c3c3, 0xa185ce8c, 0xd9be5d85, 0xe02e9dcd, 0xfa039fe, 0x806b50c1, 0xad1dc7c0, 0xc6ab58f, 0xa78992c2, 0xfbe348ea, 0x7d58fda7]⟩,
   ⟨[0x6f4dbdfc, 0x7e65277, 0xe4e35aa2, 0xc35157c0, 0xfaf9cf8d, 0x9844955d, 0xe577a918, 0xd1832d2f, 0x212a678c, 0xcdd6ccfd, 0x262f2bc7, 0x19406763, 0x7dcf82e3, 0x1b5fe0fc, 0x28083b97, 0x72fcb512], [0xcae3c67a, 0x2eb13174, 0x28f8cb44, 0x571dbd35, 0x7b2f56b1, 0x3f3514da, 0x2e1d4cd8, 0xc5906697, 0x3709fd27, 0x9f9589da, 0xdcf0e714, 0x539cba98, 0x36d31bac, 0xc6fdbe82, 0x8860078e, 0x22501c25]⟩],
  [⟨[0xe7462a35, 0xb6baa4c5, 0x2de0e694, 0x4cabef23, 0x67a94587, 0xe595f2ce, 0x65de13ef, 0xb4d6b80, 0xb88601aa, 0x6ed1fa63, 0x254800df, 0x63daf3ef, 0x6edecf60, 0x15f07c6b, 0x49f82df6, 0x746cb00f], [0xf95dc407, 0x4860833f, 0xd4d68d59, 0x245fdfb1, 0x28c585c1, 0xfd7e1346, 0xaa744d74, 0x3307aae7, 0x27c71537, 0xab21f1d5, 0x541adb51, 0x1bed3b9c, 0xb804584, 0x48e65628, 0x96c62e82, 0x10213dc3]⟩,
   ⟨[0x9e900795, 0xa971a321, 0xa28ad250, 0x41151e65, 0xb46f0286, 0x88fbf84c, 0x2c5aa2bf, 0xce5e34e3, 0xfe74fbd6, 0xc30f0784, 0x9dddc5bb, 0xa19aca51, 0xd954b6af, 0x30cb6369, 0x1ba9f34a, 0x20c72b2b], [0x421721ee, 0xd9f6cc9, 0x701f3853, 0x5239e3d2, 0x10a37d0d, 0x48cf795d, 0xc1454415, 0x2822acf8, 0xf9392c27, 0x9ef24913, 0x33f3f273, 0x93178976, 0xaadfe5db, 0xad1cab2, 0x2019622, 0x24541951]⟩,
   ⟨[0x122fe6a1, 0x577e8e89, 0x29dcabc8, 0xdfed3ef0, 0x1f1ec613, 0x91b0ae21, 0x43ec585c, 0xf4fb2e9f, 0x5afdc7fc, 0x402f8d43, 0x3bfc6ddf, 0x7df6e3f4, 0x2094f2ce, 0x4b14b20b, 0xc9f3fce9, 0x6621fa23], [0x61482134, 0xc167636b, 0xbd89aa34, 0xc2d96af4, 0x77a1383e, 0x4d19c547, 0x994b20ec, 0x86476c72, 0x3611027e, 0xd71188da, 0xbfa77ea0, 0xeeb9cb25, 0x7a9ffdfb, 0x63e03706, 0x9e1f711d, 0x52fbc735]⟩,
   ⟨[0x9dcd39c8, 0x4d58058f, 0x560a57e3, 0x742dcac8, 0xc40593c3, 0x51314e8a, 0xbbe9f40f, 0xaa35caf4, 0x7b4df87c, 0xd0d06acc, 0x897586cc, 0xe02b48cb, 0x9f14ab3b, 0x30ab25ab, 0x2dcffd42, 0x77b9d8a2], [0x43f00508, 0xde1678e7, 0xe59d0799, 0x2f82d94e, 0x7d85ff61, 0x1d68dc5f, 0xa577e85e, 0xccd286ea, 0x5653ce9, 0x78202172, 0x4b096045, 0x80bcf42c, 0x8d9dc78c, 0x983ac1da, 0x757f008e, 0x48ade8d1]⟩,
   ⟨[0xf131c430, 0xfe9cadc1, 0xd4acf7f9, 0xcb4facae, 0x4b81aa0c, 0xa75b35b6, 0x6132294c, 0xdb73bf2a, 0x35fc4fbc, 0xdc1998ee, 0xf1a96ba6, 0x1125cf55, 0x1ac0769d, 0x800577a8, 0xe4cdac1c, 0xaf21977], [0x91dd37f9, 0x12cae81d, 0x1a432775, 0x81f5baf6, 0x81cbcb7d, 0x62a87c5d, 0x2d311e47, 0x781596ef, 0xea6ce86, 0xada41a24, 0x9198bfee, 0x64e561d, 0x8784fc32, 0xd2ebb0d7, 0xe00d527a, 0x60f7f749]⟩,
   ⟨[0xf9f5101b, 0xb6220879, 0xed750b14, 0x8e51e911, 0x56b8b8bb, 0x5a0ff851, 0xe97f0f1b, 0x6efdb4cc, 0xcfee47c1, 0xef4e3272, 0xdb73fa56, 0xfb33d3ff, 0xd5c182a7, 0x8702d241, 0xb061f4c9, 0x1342c905], [0x40b3b920, 0xccfdff8b, 0x234f25be, 0xe01adaa1, 0xca98b24d, 0x6ee2afd9, 0x933cf022, 0x833c8017, 0x8b7e88da, 0x9446cdc8, 0x252b0c4, 0x8a83deb, 0x983b95bf, 0x5afae687, 0xbbf76f93, 0x417a1691]⟩,
   ⟨[0xe270155c, 0xf1100073, 0x37d73458, 0x913b27ab, 0xf8799368, 0x723b646, 0xb8599816, 0x891c7858, 0xad13a257, 0xbdcf3c7a, 0x106e5b5a, 0xf473bee8, 0x27722f06, 0xb093d484, 0x8e4cf84d, 0x33895f5c], [0x1a92a242, 0x530f59fe, 0xd5444e38, 0x703fdc05, 0xa9b55c56, 0xec6fb903, 0xecefef64, 0x102929ba, 0xbfc1f153, 0x76b9b329, 0x7a32a9e4, 0x3f794ad7, 0xad9d9f76, 0x9a344bd7, 0x8f22fe76, 0x1281308b]⟩,
   ⟨[0x55d6dfc4, 0xdbad1d04, 0x78fb03a6, 0x1674c09f, 0x4f4eb90, 0x10f038f0, 0xc933f8c3, 0xd6f8ceba, 0x322e4ae8, 0x6d3018d6, 0x65fb0400, 0x3c0e8dd8, 0xf8603f6e, 0xe04fea5, 0xcf3d2fba, 0x417f6c35], [0xc6dbf972, 0x4f62d458, 0x3c69018c, 0x1d66cc0b, 0x4f1297a2, 0xdb741bc6, 0xddec7115, 0x7eeda8d5, 0x9a910ca8, 0xb5d07b3, 0x3d0fa9e7, 0x5d74bc7e, 0x4dc25e76, 0xf3d1063, 0xddd0f35e, 0x7bdf3f13]⟩,
   ⟨[0x49a8e647, 0xf4b8e8f9, 0xc9c7f249, 0xd2045ff4, 0x1dfce331, 0xa73e2073, 0x60186a35, 0x538fe0c2, 0xd44d55dc, 0xf6931385, 0xbd2d5d5c, 0xaa0fae8b, 0xce9e7b7, 0xa1df2451, 0xf6e915df, 0x453b0239], [0x4bd5604d, 0x92e689fd, 0xea5fb1a5, 0x302f7b7c, 0xc6c18bd5, 0x9a065527, 0x38018472, 0xb6b93023, 0x775efe83, 0xec4f8e47, 0x5d557e9f, 0x5efed6cd, 0xf32db82a, 0x883149a7, 0xa83ba057, 0x32bb4dd5]⟩,
   ⟨[0x8ce494a6, 0xb45fb239, 0x15a171f, 0x6e80d72b, 0x846810f0, 0xe17a3d2b, 0xc689398e, 0x86a2c703, 0xf84177d3, 0x163cc0ea, 0x8485195, 0xcfc54536, 0xaea228cd, 0x49ed48e3, 0x5e05a3fa, 0x51d4cd9a], [0xa28c1f0, 0xd75c938e, 0xd986264, 0xe18fcbdb, 0x129a474, 0xe29546b, 0xb4e6503e, 0x718c5f10, 0xe89ffd06, 0x5bffef16, 0x7abfefbe, 0xd87f3e8d, 0xb05607df, 0x3e6eebd8, 0x30fc02d, 0x1b3135d4]⟩,
   ⟨[0xafd466ed, 0x1fca9768, 0xdde4fe72, 0x3711cd99, 0xa0bc2449, 0xfa6a96fb, 0xdf617ad1, 0xb4e3322d, 0x38997d42, 0x652400b5, 0x5869744e, 0xe4033fdd, 0xf8cf5a3f, 0x5e56cf67, 0x39950dfd, 0xb68f418], [0x921a1064, 0x31f316b3, 0x860ab95e, 0x84cf2c3, 0x33a08792, 0x4fae7cbd, 0x5c2f1f4f, 0x13e887ae, 0x5a2c1393, 0x1b4d941c, 0xbfddc322, 0xe7043946, 0xa801a880, 0x2d73cd5b, 0x45019eb0, 0x6cdc6bc2]⟩,
   ⟨[0x72a9bddf, 0x68d9ae82, 0xc4f79a39, 0x3ea7b5d0, 0xbfa9189d, 0x8a9e525d, 0x8088070, 0xc4bcdb4f, 0xf0019d99, 0xd4f1b3d0, 0x3a21c513, 0xcd3981d0, 0x51146a17, 0x4a85b07a, 0xac9373de, 0x44e11fcb], [0x406b1f1d, 0x45c28b85, 0xa598a7ab, 0x7669767b, 0xcaba790e, 0xe4dc8f54, 0x4002264b, 0x7259e49f, 0x78a9f0e3, 0x54142e6d, 0x2d74e9b1, 0xfc384317, 0x471ba3c1, 0x949a6e31, 0x269dbd46, 0x2196e341]⟩,
   ⟨[0x1c85c152, 0xf090b214, 0x2980953d, 0xc66553e0, 0x908b9243, 0x50050906, 0x18f1b4c3, 0x489b07b8, 0x4a6a7071, 0x39c781de, 0x15faf2a8, 0xc3fcc6b4, 0xdf30d339, 0xc9a9d650, 0xdc87b05, 0x2bcf8969], [0xd36dd59, 0x6bd11101, 0xaf38d4c5, 0x9afd4507, 0x1fee36e3, 0xe9a345a3, 0x37454ba6, 0x141074a8, 0xf603533f, 0x89747031, 0x897f9fa2, 0xab75320e, 0x594481a4, 0x52927cdf, 0xbc2244a3, 0x2c8fb10b]⟩,
   ⟨[0x1c40c77e, 0x456358b8, 0x1732ed35, 0x26a15ea8, 0x9aea6548, 0x36f26cbb, 0xd7fad4c1, 0x6589ac51, 0x9067988d, 0x4804a1bc, 0x4219111a, 0x633f203e, 0x123c4bbe, 0xcd90d01c, 0x82519788, 0x617eef27], [0x9ddfbbb9, 0x8a7f22a7, 0xc8f9e873, 0xf8cedc4e, 0xf8b00ffd, 0x547a5995, 0x3132f91d, 0xc6780ac5, 0x6dd34140, 0xad711350, 0x83d8a3e6, 0x1c0a71ec, 0x86e0466b, 0x687d67c7, 0xbd67492f, 0x7ce57b02]⟩,
   ⟨[0xc4a0f3cf, 0xef5a0fec, 0xe3c2a79f, 0xceb2194b, 0xd37afb50, 0x7371ff56, 0x68cfb693, 0x881c254a, 0x7a5b61f5, 0x31f411b1, 0x13e15910, 0xc2141eeb, 0x75c6566f, 0xd4b5d015, 0x60c17f10, 0x1335132c], [0xf9eed825, 0x49a2d9cb, 0xe7c41c5a, 0x514441a, 0x636ba847, 0xce9f19f7, 0x44f44b74, 0x55175057, 0xd26f9dea, 0xed9cb8a, 0x84bd07a6, 0xbbb248c0, 0x9cd8a6c1, 0x2c867fb1, 0x2186db7c, 0x230b4122]⟩,
   ⟨[0xbc6b2647, 0xc59af140, 0xd5ca9d30, 0xcd781156, 0x4c5c668, 0x479cfcf8, 0xb08beec5, 0xeac4a5c0, 0x6c67636a, 0x8772b60e, 0x631a6ef3, 0x99266f13, 0xd368b05, 0x4dade9de, 0xe42cb970, 0x2f9488cb], [0xb6fb1965, 0x4882b1d4, 0xaf24ad57, 0x6423bbb4, 0xc406cf8f, 0xe52b487e, 0xd49d4935, 0x502802ad, 0x24d5128f, 0x6832e216, 0x670eae40, 0x42190cd4, 0x39258f40, 0xa2d4fdb4, 0xc5cadeea, 0x6127e350]⟩],
  [⟨[0x896f045c, 0x160d95bd, 0x406d8ca3, 0xbb8aa2c5, 0x94f274e5, 0x1b4e10b3, 0x6332db6b, 0xe6d30544, 0x5aae23c5, 0x95250d6a, 0xfc831ac1, 0x67458318, 0x63510d9a, 0x5d21c9b, 0x20f2a3cc, 0x2416562c], [0xd6de2b6d, 0x8b666c7a, 0xe54b6b3c, 0xc49d98d0, 0x90558a8e, 0x73315c3f, 0x44e631c4, 0x212910ad, 0xbb053e42, 0x7d2ebb7e, 0x4fef86c3, 0x396ad261, 0x5e410bed, 0x90da355c, 0x43c9183f, 0x344a24dd]⟩,
   ⟨[0x6ac2509a, 0x50971549, 0xfda9f8af, 0xfcaf5541, 0xb3f2b1f5, 0xddfdc6a9, 0xb7da428b, 0xbca36b59, 0x357dca59, 0xb55602be, 0xce692e5d, 0x803c92a1, 0x6dc19967, 0xcd723c3d, 0xf741820f, 0x3ee4bc03], [0xbb103f3b, 0x70113c23, 0x36553268, 0x35fa9144, 0x1c026e84, 0x505b7917, 0x1ed89d68, 0xa43e1256, 0xc87289be, 0xc8ae5cfb, 0x2b9c5072, 0xd573e0cf, 0x475fa7a4, 0x709b1c4b, 0x81d07d11, 0x505adf59]⟩,
   ⟨[0xa4afd6ac, 0x1bc79e6a, 0x26866c93, 0x156c1b36, 0x90a70847, 0x6e4f2fb6, 0xe37556c2, 0x745824e0, 0x5bf6585c, 0x384788e8, 0x87efa785, 0xad6a726b, 0x40feb98e, 0xd93a3b7e, 0x282eb335, 0x4ba6a352], [0x937fa288, 0x36ee7727, 0xc0513862, 0xf1334dd2, 0x30fb68f5, 0x7af1b32e, 0x3196b14d, 0x2b0baefe, 0x21e84fa0, 0x5e7ba8d7, 0x256ae375, 0x4da767cd, 0xe0f658db, 0xa8d467f8, 0x20db1855, 0x7709039e]⟩,
   ⟨[0xb26ee5f4, 0x6155bdc4, 0xc48a3913, 0xf0cfd2b7, 0x63bfb3e5, 0x75aabca1, 0xc525da22, 0x9232746d, 0x333f2b14, 0x5f00a6cd, 0xf8eca91e, 0xb3216c2b, 0xf6e4ff19, 0x9a1f1ee8, 0xb0074f5d, 0x3c76adcf], [0x45309788, 0xa414bffb, 0x86539f4f, 0x83ef3c3f, 0x576c4a69, 0xab8ceea, 0x13bef0e4, 0xa01cc458, 0xea181987, 0x855b7f00, 0xe30f184f, 0xa97f14a9, 0x554d467d, 0xb17df2f0, 0xd6c8100d, 0x29f0a944]⟩,
   ⟨[0xc7d083c9, 0x57796871, 0xda74190, 0xb83cd7ff, 0x97dc4a71, 0xa077968f, 0x8acdc2d, 0xc27429ec, 0x2b52dfee, 0x4996df6, 0x1c182059, 0x13511c3a, 0xcefa8f7f, 0xcc27218a, 0xa0e51331, 0x757bd45], [0x453dd761, 0x5f1d65d, 0xf3c5f5df, 0x71d57417, 0x38fa1ae7, 0xc1e2043, 0x36e7bb29, 0xa68a6f2e, 0x221ea420, 0x3f3ca00f, 0x1484f503, 0x840830f6, 0x18380fc5, 0xa011ea61, 0xd4d5f0b4, 0x63e08325]⟩,
   ⟨[0xa5352f43, 0xac4f176a, 0xf5346c89, 0x2c0a1d79, 0xea7357bc, 0x3f16b2ec, 0x9cb644f4, 0x1fe6e823, 0xe2c9912e, 0x54e68bb4, 0x98e581ae, 0x82b35e8e, 0xd6611b81, 0xd855e028, 0xa8c7abe1, 0x3d420591], [0xa4d7c106, 0x71326cb4, 0x7e21f3ea, 0x5ba8407f, 0x40da0d53, 0xd33581d7, 0xc1e7d99, 0x7ab20546, 0xcb0075b5, 0x71438057, 0xcb952fee, 0x2f9ad50c, 0x8b942a98, 0xfdcf4a12, 0xd8bb5be5, 0x25cfa1b]⟩,
   ⟨[0x27bf5931, 0x2bf4abf7, 0xd080a1ba, 0x78bd4315, 0xf12b24d0, 0x1eb55607, 0x8e8bab49, 0xb7bc25d6, 0x60e68a74, 0x1b666ae, 0x9058e10d, 0x9e1e7417, 0xab695d1e, 0x5d2493d0, 0x271b7fbf, 0x714d7bb5], [0x3bd07521, 0x869b52f6, 0x38e8a90, 0x3413a47c, 0xc2b6d60d, 0x2b7724d4, 0xb984b181, 0xd500a48c, 0x99ed9e13, 0xdcd82594, 0x9397dd9, 0x33c480ba, 0xb36cb025, 0xf98da63d, 0xc33fd92, 0x593108a]⟩,
   ⟨[0xf01ab893, 0xe3bbccb7, 0x6ce61b0b, 0x3d8d3bd2, 0xfc00db91, 0xb030ce07, 0xaa51d38b, 0x78add938, 0x6caf34cc, 0x8fa75797, 0x494b4cce, 0x28c34c7e, 0x79091116, 0xecd5f385, 0x3512b9b1, 0x455fd953], [0x3cd57be0, 0x1d2150ef, 0x43cef565, 0xf130b2a0, 0xfa4a4082, 0x1146159c, 0xd6bb7e30, 0xde949d6a, 0x40a2a53b, 0xeb8984ed, 0xb920cdbe, 0xb9e72fe4, 0xb43a51a9, 0xa507ddca, 0x6c7c6f7f, 0x3eb7d79f]⟩,
   ⟨[0xdd356637, 0xdf75fe14, 0xfbc9e9db, 0x4b21206b, 0xa729bb2f, 0xa33bcf3, 0x686f49f2, 0xa61a363c, 0x34bd498c, 0x426a4603, 0x705f7cd3, 0xe87eda60, 0xe633e9a7, 0xf9d24a5a, 0xa4325c1d, 0x52063d93], [0x23eeb132, 0x2890eec, 0x5d39ddfd, 0x430e86, 0xa1e47638, 0x118e18f6, 0x5806cd2f, 0xbb38e8c7, 0xf7ce9486, 0xb7e5375e, 0xfde35e82, 0x73daa9eb, 0x82070d71, 0x117e4761, 0x915bbd57, 0x317df0be]⟩,
   ⟨[0x25b74127, 0xf6915487, 0x18162d83, 0x4333e7f5, 0xa429665e, 0xb435bef9, 0x20b9d358, 0xeee9b7b7, 0xf8d1d44f, 0x436abb8b, 0xbf38b81f, 0xd1219f9a, 0x9035de38, 0x7cee7063, 0xb341ffda, 0x34129008], [0x99745c5b, 0x6595a1b0, 0x2c0685bb, 0x7df297a, 0x998110ad, 0xee85c714, 0xe2a8ad4e, 0xd251e587, 0xec4d02c1, 0x9a38f9dc, 0xccdaf4c8, 0x60da566f, 0x90b08ca2, 0x1bd9a21a, 0xe97f4ea0, 0x6d9414ae]⟩,
   ⟨[0x74973250, 0xcbfaa861, 0xab15aa60, 0xc58a0f6b, 0xfdb7a15d, 0xc00f822d, 0xfa067def, 0xaea74910, 0x81f3efc5, 0x3750367b, 0xafc6ec7c, 0x3183e3e8, 0xda10cd9f, 0xfb62717a, 0x6eec9774, 0x40431c1d], [0x5914824, 0x423e7310, 0x9de23908, 0xa4f7a978, 0x7d5d18aa, 0xc151a73c, 0xed1eac6b, 0x1b85b7cb, 0x75066c4, 0xf25caf8c, 0x8004809b, 0x99508d70, 0x212271c6, 0x6bedc19f, 0x77a5ae84, 0x2ccdab39]⟩,
   ⟨[0x23389925, 0x14203bec, 0xcf059388, 0xfbca94cf, 0x8124f30f, 0x17626b40, 0xc1c98eb6, 0x2208f6e5, 0x961f4c48, 0x9b385200, 0x2e5c7a, 0x1c9f33e8, 0x58b6dd91, 0xc426a940, 0x1cec7286, 0x6df740e5], [0x87e56c60, 0xf9397986, 0x587728f6, 0x84425935, 0x2fe267fb, 0x394a3a01, 0xd451cd8e, 0xb9c6481f, 0x5340aac8, 0xa6ab4f4b, 0x9b85ff63, 0xd7fd9675, 0xac5aec86, 0x3d3ae591, 0xb96673f7, 0x43283823]⟩,
   ⟨[0x74e61ba9, 0x24214d23, 0xf69ed123, 0xb41cfb58, 0x54f5f407, 0x8e91fe02, 0x4f84200b, 0xfb989936, 0x24e62f0, 0xaae985ce, 0xa0bb20f6, 0x896815ed, 0x3df1e5bc, 0x3536095b, 0x9e1eb847, 0x31c5afa0], [0xc2b9b4f0, 0x5c32910f, 0x50dbb2e8, 0x32aba814, 0x6aaf8a27, 0x17e2b52f, 0x111cd6c3, 0x142e63ac, 0x22b6d227, 0x15d5f297, 0x3c14ce28, 0x22380a78, 0x5249f727, 0x29f4951c, 0x274839de, 0x24c25987]⟩,
   ⟨[0x14c6ca73, 0x13f552e9, 0xb154556, 0xce965927, 0x83ee34e2, 0x330e6d59, 0xe8035ad6, 0xfb7b6051, 0x5b2d081d, 0xc58fbca8, 0x91d78c8e, 0x254fedd1, 0xcf877f74, 0x438ff98, 0x8bb12dc9, 0x479cee4a], [0x7a0cbcdd, 0x1855a1c3, 0xffc35, 0x3667ffbb, 0xf880e9c0, 0xc053a4bf, 0x5aefe0e, 0xf8e1bcc1, 0xb65dbbc, 0x1afee0f2, 0x9e945f96, 0x63acb97b, 0x80b8f0ba, 0xdfc80965, 0xe919be03, 0x12a145eb]⟩,
   ⟨[0xc6008c86, 0x8bbd02e8, 0x516bdd2f, 0xb7ace6c4, 0xe5036467, 0x914ae008, 0x87987c22, 0xd06cf392, 0xc71ffcb4, 0xf78c12d, 0xcbf7a3b3, 0xb4612fbb, 0x7b711004, 0xb6e69255, 0x1ea5ed45, 0x68cee9ec], [0x5009fad4, 0x45e4a8d1, 0xb1458df2, 0x1d303bd7, 0xbe13efbe, 0x388523d9, 0xc15147cd, 0xac9f6d4a, 0x9ecfa216, 0x551f3470, 0xac9311f4, 0xff1aa33, 0xb8d84926, 0x34eed866, 0x72c2cc5c, 0x6bd5ed1c]⟩,
   ⟨[0x9bdd8695, 0xa283ec1a, 0xa599147a, 0x451a730b, 0xda71f52b, 0x9b6cc56a, 0x77d55722, 0xb1002cf5, 0x7a8d105, 0x354328cd, 0x7a21026c, 0x86b04ca8, 0x50ec9794, 0x53bada3d, 0xbbc32d2b, 0xbd230c8], [0xf7e3c388, 0x322e97fa, 0xad6feb4f, 0xa0f06207, 0x9a128aa1, 0x3b05c04e, 0x2214d1ab, 0x5de3c90, 0xe69a562b, 0x632c92a7, 0x6befc0b6, 0xe9f9dee0, 0x63e05275, 0xd269f547, 0x6c56ec35, 0x4b2e1ab]⟩],
  [⟨[0xfeb514d4, 0x9db921fc, 0x485f4f30, 0xac3cb4, 0xfed6b15b, 0xdaff6f9, 0x9a5e67cb, 0x74c16af5, 0xa8275392, 0xaa73c142, 0x46a65634, 0xbf53e454, 0x3d87479, 0x2819387f, 0xb495dddb, 0x4bc9293d], [0x18ae902b, 0x755ec696, 0x1e9c6398, 0x14729175, 0x29508353, 0x82396b3f, 0x8614c4d, 0x932903ae, 0x50bc308a, 0xa4b24d64, 0x88bda41e, 0xa89daa2f, 0x84f8a09a, 0x94fc7c46, 0xb4931402, 0x1054948e]⟩,
   ⟨[0x8a7ba306, 0xf3e0bb8f, 0xa45240b6, 0xc31fde41, 0xe1755b86, 0x5ad7e1a, 0xbcdd1230, 0xddbfc1f9, 0xb4f8b744, 0x8006bdbb, 0x8ade1d9a, 0x86582902, 0x78339e6, 0x8fefe3b7, 0x46216ea5, 0x342996f4], [0x9b3d4651, 0xe0e1b5b3, 0xaabbe714, 0xb2fc080c, 0xa522f01c, 0xc720bd5e, 0x95f65ebe, 0x11d0543b, 0x484d4123, 0x880103c, 0x96976f8b, 0xd3f969f3, 0xfdba1cc1, 0x614855b7, 0xb3ec4b2e, 0x56d4eefe]⟩,
   ⟨[0x3894eb7e, 0x29dc51c, 0x9d9876b7, 0xf4aae878, 0xe2388a33, 0xfcd3c74, 0x91e31014, 0xad4c4cf7, 0x11977d22, 0x34f61ff1, 0x7aafc8d7, 0x984416fd, 0x5dae6048, 0x4a441361, 0x7b1afa0c, 0x50d2387b], [0xbb8211db, 0xd8be85a1, 0xdd31fed9, 0x195092c3, 0xc1764c23, 0x1f6fe6ab, 0x3f067d75, 0x6a25de23, 0xa244aa1d, 0x8db614aa, 0x25b11975, 0xab0d7473, 0xc036ea42, 0x714067c5, 0x6f3b1132, 0x379935d6]⟩,
   ⟨[0x8e762cb5, 0x1e8339d4, 0xdf30209, 0x1857091c, 0x29523926, 0x2e4ac9a7, 0xb7d5a5bb, 0x5983f6d2, 0xf31262fe, 0xa99d8d11, 0xa5cab7c2, 0xe722945d, 0xe8767862, 0x3196bfbd, 0xa59924f6, 0x43707848], [0xc78d8788, 0x8f0e368a, 0x4bf7da53, 0x50811a26, 0xdca664ff, 0x9e0cb8fe, 0x82edadd5, 0xd2b8dfa0, 0x4a0c48e4, 0x9c45772, 0x22511381, 0x6ec46a5c, 0x313e87cc, 0xf5810bb4, 0xab5a6bab, 0x20c5f006]⟩,
   ⟨[0xd87a06af, 0x76c6f60a, 0x78fdebb5, 0xab7144ad, 0x5646a659, 0x956c36e7, 0xb785e745, 0x5477d0f6, 0x4594bc06, 0xfe9ff232, 0x3039a102, 0x1783b9a0, 0x90db0ab3, 0xd41e6c5a, 0x7550121f, 0x43749fb4], [0xd17ca661, 0xb7c6d143, 0x2b73135d, 0xb1591f57, 0xc62dff62, 0xf03232c9, 0xcaf25761, 0xd3d1c629, 0x4b67d224, 0xf633733f, 0x764ebf02, 0xcfbbc0d0, 0x63c7ee19, 0x41cc07dd, 0xe8b36cb5, 0x53bc8a63]⟩,
   ⟨[0x74caf7ff, 0x1e9f596c, 0x8c049872, 0x8088ef96, 0xce1208bf, 0x3a9ea96e, 0x15daf25d, 0x892c44e7, 0x5e996ae4, 0xaf6e1ebf, 0xbac1a746, 0xa6eee3c, 0xcaf162f6, 0x9d471cb1, 0xe6be08f1, 0x13f7192a], [0x49fbb46d, 0xce44c77a, 0x5a04a72e, 0xa7b9136f, 0x2b937703, 0x6ca33ec4, 0xe8685fff, 0xd4b3aab5, 0xe7207ef1, 0x8efe02b3, 0xb83d0e5a, 0xb138c46d, 0xf6c29885, 0xb73e636a, 0x72567a55, 0x5c1e1242]⟩,
   ⟨[0x15137904, 0xdd967b6a, 0x6969b92d, 0x4588baa7, 0x5e2ba269, 0x99580a4c, 0x915645cd, 0xe80802b4, 0xfb6591ae, 0x7246f3f2, 0xcc25f464, 0x68c2f8c6, 0x4905ae3c, 0xb5172e90, 0x675591b3, 0x6860bbdd], [0x626489df, 0x68be15c0, 0xc737beb, 0x65ea3d88, 0x32b5081d, 0x9ef8b6cc, 0xb16ff753, 0xa6238bb1, 0xe17264c8, 0x22191589, 0x903e28dc, 0xdbdae7a3, 0xf2dbcb8e, 0xb36fcd91, 0x75d33835, 0x1ebfac4]⟩,
   ⟨[0xbc820aec, 0x7b0ee204, 0x8568c4e8, 0x500da7fc, 0xb0961d29, 0x992a6429, 0xe65d7fda, 0xa3cae853, 0x34197e58, 0x7b6f5e79, 0xc4e849cb, 0x90d37eac, 0x106fd33, 0xe01d14af, 0x80027e17, 0x4be83679], [0xa85ee145, 0xa412ba38, 0x5097cd50, 0x219d461e, 0x29ecfcda, 0xad42175c, 0xd04faefa, 0xb1def962, 0xa95983c1, 0x5b527a4b, 0xbb20ab6d, 0x48a06c96, 0x1fb83513, 0x7bad34cd, 0xfdf018ed, 0x458294df]⟩,
   ⟨[0xa695a157, 0x1d1ebd7e, 0xc52d5ed9, 0x296dd049, 0xbe33f05, 0x8958f5b0, 0xd37e60d7, 0x6b7f7204, 0xc668c85a, 0x446f7b95, 0x20f60396, 0xb6e53b20, 0x8e621e73, 0x5738ff4e, 0x8cd9f00c, 0x5dbd495], [0xcfecaa9d, 0x645ad9d6, 0x3cef6673, 0x1cb8e09, 0x6d13da7, 0x2851ed4e, 0xcb18dfcb, 0x61fe9a95, 0xf903cbfe, 0x62cc060f, 0xf14b0b1b, 0x121b6e4e, 0xc4dec6f3, 0x8cab6654, 0x4b40d6d4, 0x71880998]⟩,
   ⟨[0x9583fb84, 0xee5ca2a4, 0x4462d044, 0xef16cd07, 0x21ebb18f, 0x1c1d5999, 0xaacad30, 0x66d7586b, 0x2eb12d8b, 0x8edf0a45, 0x223de805, 0x1a320a44, 0xa0c2f092, 0xa389da0, 0x7e68a2d9, 0x274ff541], [0x30395e54, 0x6cc34b53, 0x8c112729, 0x881e630b, 0x70e4c811, 0x801e1cad, 0x91c2e90a, 0xa527ae82, 0x562ae094, 0x93179bc8, 0x148f4f44, 0xce68a130, 0x32f8ccfd, 0xd8ca2ed0, 0x527f82b, 0x415fda4]⟩,
   ⟨[0x25aed793, 0x9f5ca1fd, 0x9c49711, 0x5b95b9aa, 0xb968168c, 0x386c8fbb, 0xbdc778f4, 0xc6b27d7d, 0x321a9d97, 0xbd5439a2, 0xdc4ba6a0, 0xea40a5fe, 0x962508aa, 0x94913f0f, 0xb247396e, 0xd2dd91a], [0x17c64eff, 0x1f459cf1, 0x137e003, 0x2e10b55, 0x60f82dfb, 0xfc375fe4, 0x4631eced, 0x9cca9d6e, 0xe5053fda, 0x575c197c, 0xa5b9670, 0x2ea3ecee, 0xa6f50038, 0xe69deca1, 0xe8edda74, 0x32f452fb]⟩,
   ⟨[0xd9e4c490, 0x20980611, 0x74825ddd, 0x827d79f1, 0x218e0b22, 0xb4604e04, 0x1f4f1752, 0xa7e5e3a, 0x243d8298, 0x50260245, 0x1a2101b7, 0xebf01c84, 0x69e1a262, 0x369e69ae, 0x4c1c960a, 0x5fd07868], [0xa8f15793, 0xc542d34b, 0xe393381e, 0x8f14b8f, 0xf855cd9f, 0xb6e06e97, 0xa6cee8c0, 0x47a195ed, 0xb05a740d, 0x8776f026, 0xac8ec060, 0x811d7ad6, 0x29002efb, 0xa61e5d27, 0xc78e746, 0x3d51d70e]⟩,
   ⟨[0xc99e1438, 0xc0d70275, 0xfd5ee6b2, 0xe95c0ec, 0x39e6733e, 0xe14f58b0, 0xb4941c24, 0x57b179e, 0x93c0a5ef, 0x5e12f07f, 0x5e72cab, 0xf600367d, 0x899f259f, 0x89fcb008, 0x9c3e30e7, 0x2654687c], [0x3f148638, 0x85b7f9b7, 0x9eaee0b4, 0x8088f4f2, 0x3a7cafd7, 0xa741d270, 0xdb5b5339, 0x8973a806, 0x22ddcaa9, 0xaaf4e75c, 0xcbb763cb, 0xa2450a79, 0x16e5e3d, 0xbe1b3f2a, 0xccecc258, 0x4b1061b2]⟩,
   ⟨[0xc9c8a23a, 0x2f28689a, 0x59341e8c, 0xd8fb2980, 0x375acdad, 0xd3617b26, 0x513ed120, 0x314fa469, 0xe2f8df55, 0xfeb30225, 0x1f639d66, 0x29e001af, 0xdbdc9737, 0xa175ddd4, 0x8015c048, 0x6a778e4f], [0xcc55dba8, 0x4612651e, 0x2b3c7b06, 0xe853adde, 0x6e0b2e41, 0x14b2d0b7, 0xee804e0b, 0xca4f0872, 0xf893d931, 0xea2afca5, 0x9be51b1a, 0x6eb01891, 0x1f2769f1, 0xb0d8500d, 0xa47ffc13, 0x1303ba01]⟩,
   ⟨[0xb43811ea, 0xbed58425, 0x4e52e1d6, 0x57d7e536, 0xbf5ef913, 0x93de67fe, 0x2713fc52, 0x2ccda4e3, 0x8f1fa4bb, 0xc5c1b6f0, 0xa725295f, 0xa267a790, 0x2d219844, 0x13bb7d11, 0x75415602, 0x7faf96a2], [0x4e4c3ce4, 0x7879edf4, 0x3bf094f7, 0x9cd59a0d, 0x4a882a52, 0xd7976deb, 0xba65afba, 0x19ebbc10, 0x2d48d187, 0xabc37350, 0x1236b5f9, 0x5d5ca6c3, 0x915eaf61, 0xdfa55ac2, 0xe8735632, 0x6c54515e]⟩,
   ⟨[0xdc21b326, 0xb1cd06de, 0xe4ae6148, 0xd6f6f904, 0xfa13be52, 0x941b7545, 0xdf7ce61b, 0xd527042f, 0xd9c9bbdb, 0x1ab4495e, 0xbf6582be, 0xa5cbe7c5, 0x41a1da90, 0x1d0b5ba2, 0xa810954, 0x6f99305c], [0x40d3954d, 0x866c254f, 0x2e5a123d, 0x5debff4d, 0xad23124c, 0x14ab6fb8, 0xc6b13624, 0xae3c32b6, 0x707528ba, 0x74075ff6, 0xe91d5097, 0x55da7227, 0x6a9c3469, 0x450d3848, 0x2313eba2, 0x15818a1e]⟩],
  [⟨[0x14125d01, 0x27be68b4, 0x2482bf94, 0x87549114, 0x8d0c8af2, 0xe8b70931, 0x11344a8b, 0xf38d32bf, 0x63136143, 0xcb7cdfd1, 0xa17d7de5, 0x717954cd, 0x7c10df5e, 0xd65bdd44, 0x4e821d20, 0x15c45f81], [0xd9c326c4, 0x7d425e66, 0x1c7b4bcd, 0xeea0d61a, 0x8707e9c8, 0x41a8654a, 0xb4a8f46, 0xba9e8f7c, 0xf2739871, 0xb96a24fc, 0xfd9c9d58, 0xa9ba022f, 0x2c9ae418, 0x59f7c297, 0xb0cdd468, 0x6b82c284]⟩,
   ⟨[0x58483fa2, 0xd4c5486a, 0xedc6a022, 0x8f140259, 0xc43116f8, 0xe451fb0c, 0x65df7628, 0x5368fe47, 0xbc70855a, 0xf0dcc6d, 0x472bfe81, 0xe726d87, 0x3c024f88, 0x9c64b716, 0x14ff6089, 0x1abae0d8], [0xb5a15618, 0xc0aba6b3, 0x65ce0681, 0x71faa6df, 0x39a6f5bf, 0x3199e2c9, 0x85bcf47e, 0xd8ebfeda, 0xc262a35f, 0xc3d57d3b, 0x269dfde, 0xf0d6338e, 0xe6d0bf0, 0x9072e1e, 0x4128b1ba, 0x980e291]⟩,
   ⟨[0x4de44cb0, 0x6a2023f8, 0x247a7d5b, 0xea995754, 0x99102324, 0xd850d179, 0xa906b038, 0x126fdfe2, 0x577df168, 0x4c3b3696, 0x9e3853ea, 0x9d3a9e07, 0x40ace3a1, 0xbc21a51e, 0xc51dd652, 0x165065a3], [0xe4bbd96b, 0xf5b255b9, 0x3d94f9d6, 0xc1e91f80, 0x84768fce, 0x7ddb5bb7, 0x5ca35823, 0x33f7adf6, 0x33097882, 0x3667e174, 0x8f241dc1, 0x5fdc3ba1, 0x172cd7fc, 0x41f5c737, 0x7986fe8d, 0x64d4116e]⟩,
   ⟨[0x8c89ded4, 0x2ff0f505, 0xbbbd0897, 0x6507852, 0x1fad2908, 0x62886521, 0x9f5f4d13, 0xb8a1362e, 0x6e9856fd, 0x83075fe6, 0x7ccedc4d, 0x6b0ba27, 0x52750dd5, 0x9b81b51, 0xcb59d8f1, 0x12a96bb0], [0xdb43958b, 0xca4bc3a5, 0x94c12e88, 0x6456c11b, 0xac330ee6, 0x7efa99ff, 0xf40aebec, 0x56973cad, 0xc5d73a2a, 0x62522e6b, 0x90f4378b, 0xf4538ca8, 0x1ba585b1, 0xe5447fcb, 0x18376ab9, 0x6c3f50c2]⟩,
   ⟨[0xe1720fc1, 0xc0156eb6, 0xffee4ba3, 0xe0f821ee, 0xd0b530c5, 0xc0b4ef97, 0x1a47cdaa, 0x3bb116, 0x464ec84b, 0xa5837856, 0xe0e63a97, 0xd65ba195, 0xa375112f, 0xb22c0f5f, 0xa7f7bdc1, 0x18d81698], [0x91e78a50, 0x5fd3c5e5, 0x97d10a66, 0xe5ee4eb9, 0x9fa305da, 0xf74bd085, 0x5485e038, 0x519bc676, 0xde116ece, 0x7d3e6e21, 0x4221f32b, 0x10d68b8c, 0x565c1614, 0xe41d74a9, 0x2e728554, 0x191561dd]⟩,
   ⟨[0x1c9bd19, 0x527cd255, 0x913fa68c, 0x1879769, 0xd76b7fcb, 0xe9bf7700, 0x2b92508, 0xcea4ee41, 0x34d015a1, 0x739154cc, 0x44c3f451, 0xd1f1f1ac, 0x7905a732, 0x1df5a4aa, 0xb67f7057, 0x81afeb8], [0x671d0f79, 0x8a0edec0, 0x442928ee, 0xe99b4b79, 0x2c1557b0, 0x4a722ac7, 0x3021bbe, 0x95070ed6, 0x672c3f05, 0x9e1e6418, 0x89b0c1a6, 0x87337263, 0x8a3b13, 0xb67b8831, 0xb059be83, 0x4f44986b]⟩,
   ⟨[0x2cb15c97, 0x9a5b3c9, 0xf9b4777d, 0x43e1b906, 0x66a5bc88, 0x3bab3a64, 0x7d82e655, 0x276632bb, 0xd97d5ce2, 0xd09388d1, 0xca1248c5, 0x26b0339d, 0x11f2a8bb, 0x5f0a241, 0xb7f68a8a, 0x1f498eba], [0xd0dd019b, 0x265c09cf, 0x958b91c2, 0x1a0fe11, 0x5a389069, 0xf55d56ed, 0x1a18a889, 0x9e5de2ca, 0x65a1799, 0x4f4c9d39, 0x7213b184, 0xb5cb916f, 0xb5d0926e, 0x1941e104, 0x2e03cfb8, 0x6ec375e8]⟩,
   ⟨[0xb57b1b5d, 0x80f444ed, 0x7d4efd6c, 0x2e5315e7, 0x868cc07f, 0x9272eba7, 0x31a8ea6e, 0x19ec814d, 0xf29fcdbf, 0x9ee92d03, 0x2e8408c3, 0xdbf8ab6b, 0xa103d807, 0xa0e845fb, 0x1ca3992e, 0x2a6a6b31], [0x1c391d76, 0xf58b6f6c, 0x13687c07, 0x9e385bb2, 0x6baebbf5, 0xf6ee205b, 0xa706c6c5, 0xb2d7d412, 0xcd887640, 0xcfe32a97, 0xd93a1136, 0x2783cfe9, 0xf4d34fa7, 0x601de429, 0x6ea85459, 0x1e433bb8]⟩,
   ⟨[0xd618ad6a, 0x8bcb9073, 0x996fe814, 0x84cdbd19, 0x166793b9, 0xb1f5ffdb, 0xede62fb4, 0x5fa22bad, 0x7019c1eb, 0xc1c1c394, 0x8aa77f0, 0x7a026191, 0xa32e5855, 0x26ee69d, 0x80b81284, 0x53563997], [0x5e0b9abb, 0xf46c064f, 0xe8a0fe23, 0x39332d2c, 0xbe9ecc5, 0xbd50ee1c, 0x8de1b166, 0x9b4a4cc0, 0x56713aaf, 0x4bba7b7b, 0xf1c76c54, 0x2ca8ef64, 0xceb309e8, 0x1022d9f4, 0x15a18d10, 0x4f1375bc]⟩,
   ⟨[0x9198331c, 0x9cf4eba, 0x7d60ea39, 0x232ca52d, 0x2fc3a96e, 0x2c478089, 0x80cb5721, 0xc7f9a36c, 0x2d8802be, 0xeda98a0c, 0x3c41b152, 0xc7413048, 0xa74d701c, 0x479df24f, 0x51869d52, 0x7a92c3f1], [0xf00ba577, 0xc1ab98b3, 0xb7778354, 0x5a687ba4, 0x157fb1d2, 0xf5a77b64, 0x81bbafee, 0xb9f746ae, 0x1bee9d2d, 0xba33ebdc, 0xd046655c, 0x6fe41bc1, 0xacc3a496, 0x2a8cb913, 0x6ac2b374, 0x7cbc537d]⟩,
   ⟨[0x538ed4b1, 0x55c19b5e, 0x61891dae, 0x6aa0e456, 0xcd971ae7, 0xd77ca0c2, 0x70294f78, 0xb23434f7, 0x14d25513, 0x3b87d759, 0x8b94f435, 0x2a37cfd2, 0x3f3f32ff, 0xf63b0962, 0x98b5916a, 0x6387efb9], [0xf35951d8, 0xb2826971, 0x996c5518, 0xd1ddcb0a, 0x3669304a, 0xa5e88b2d, 0xc53dedb7, 0xea5685bd, 0x6a446fa0, 0x2dd72e08, 0xea074ff8, 0xfa2689ef, 0x7a8302c3, 0xc3430bbe, 0xe98d1cd5, 0x98a5073]⟩,
   ⟨[0x44ee6cc4, 0xcf5d95c2, 0xce04027f, 0x5d5278b5, 0xc1d26e0e, 0xea0f4d01, 0xab2e71fb, 0xa79154f3, 0xdc59126c, 0x27bba6ee, 0x632bee8f, 0x269eb8b7, 0x53bb6c55, 0xd5894008, 0x222dde2b, 0x7698da12], [0xb5d03bc6, 0x826df5a3, 0xe126406f, 0xfaadad56, 0x68849d5f, 0x2ec70b64, 0x1d799e78, 0x9ddf8991, 0xd4de8ac5, 0xb2aeafc5, 0xe114ad71, 0x7a167f8f, 0x13aa2edf, 0x9dcd07bc, 0x6651bd12, 0x531a5a3d]⟩,
   ⟨[0x82e7c32c, 0xde7ce2ad, 0x2d0742c3, 0x2c9908ea, 0x56f7c69, 0xda528d69, 0x704bfdcd, 0x1fe6e3eb, 0x79b0f586, 0x9c1eeddf, 0x481e83f6, 0xf6f81fb, 0xe007286e, 0x17db66c0, 0x1802cd99, 0x3607ec13], [0x6f216120, 0xccb2b85c, 0xe51c2036, 0x7b9ea544, 0x5428771e, 0xb14cd361, 0x3c6bd02, 0x978c458e, 0xeaceb25a, 0xea43c163, 0x6b85cbb9, 0xb590d2d7, 0x19c45d61, 0x10b8eb86, 0xa1fc40de, 0x2e5af3e0]⟩,
   ⟨[0x90d2ea3e, 0x465c6261, 0x3e11efc6, 0x6b10583c, 0x24958f6c, 0x1e3a1132, 0xb3336ea5, 0xcb895c3b, 0x5f89eea1, 0xca995e60, 0x199719b0, 0x725fb30b, 0xf8061d92, 0xc6897e80, 0x2cfbfb75, 0x56680a53], [0xd13e5e25, 0xa770755d, 0xfb78d704, 0xc33f71b0, 0xa101b288, 0x7b2322e7, 0xc1075a9e, 0x3ed4a92, 0x4b8cb0d4, 0xbf435984, 0x60f8188c, 0x6c61ddf3, 0x4d04ea1b, 0x760339e1, 0x46ce38bc, 0x18b7fe13]⟩,
   ⟨[0x838c109e, 0x7aa91562, 0xef910eaf, 0xbbcae1a4, 0xa3f53427, 0xf3cad5ad, 0xaa559ee9, 0xf8fa6f08, 0x9b872c03, 0x35df7aa5, 0x8f1c0b48, 0xa3c6789, 0x3b1f9abd, 0xe4106f6f, 0x7daa3ea0, 0x51ee882b], [0xa97c031b, 0xfae35fe0, 0x2fb341d9, 0x265cc7a2, 0xf7515098, 0xf99d1646, 0xa70c3101, 0x3630dcfc, 0x984a7736, 0xd492ae5, 0xa65956c5, 0x1e46acb5, 0x9c39921b, 0x87e193d0, 0x71406e88, 0x1aa85a4b]⟩,
   ⟨[0x26b55827, 0x6875f762, 0x28c694f4, 0xc6e92cb6, 0x57e83283, 0xc3da1cfb, 0xfc91e16a, 0x2dad4640, 0x79e48fb, 0x27238edf, 0x4676f002, 0x8262f37e, 0x7e20a097, 0xf1df5685, 0x1d647dbf, 0x710b8830], [0x55f50ec5, 0xf521938f, 0x5a65ec57, 0x86e72c2d, 0x9e067563, 0x72e72e10, 0x2941350f, 0x1c572f37, 0x27e00fbf, 0x234f613, 0xe0605a65, 0xa33ccf1a, 0x9be4c255, 0xfdb2433a, 0xdd7e45cd, 0x18374ceb]⟩],
  [⟨[0xceec3f3, 0x9e00fc84, 0xd2268df, 0xa758aa23, 0xd36f482d, 0x5c9b3794, 0xe90303e7, 0xee3f79cf, 0xd1bb3495, 0x22573217, 0xd2242a7e, 0x6d5c2063, 0x876a074a, 0x339bedb8, 0x95cd5aa2, 0x63268703], [0x1b0cae7b, 0xa86b4ef9, 0x3db7d12d, 0x420985b4, 0x6b1ceed3, 0x99a3bb29, 0x3569fa9e, 0x2113b00f, 0x8e8bf2d8, 0x2c592420, 0xdb962b, 0xf74dd63b, 0x9758035f, 0x8f0523e5, 0x448f83c0, 0x4ea1d81a]⟩,
   ⟨[0xaab1f908, 0x1183057, 0x324ac197, 0xaf94ae9a, 0x23710a59, 0x6bf3b50d, 0xc39a3428, 0x9b65a594, 0x2210c08a, 0x345e5c52, 0x23216fe9, 0x6d728dd6, 0x2e4f42c2, 0x9d09327b, 0x9505f44, 0x47504f62], [0xfb3ad9b5, 0x24f03d12, 0x439f3e25, 0x70e8de3c, 0xae5a62fe, 0x1fe89f0e, 0x4b98cda2, 0x3b518a06, 0xc70ff3f3, 0x725ae18c, 0x2ba4952, 0x45765c35, 0xa7c32e49, 0xbaa6488d, 0xc5a2e6d7, 0x5d277639]⟩,
   ⟨[0xbd6f5df9, 0xe3818693, 0x8307a5ad, 0x482d9357, 0x323d211c, 0x82b507f2, 0x92967d94, 0x9e382a71, 0xb3bff973, 0x4327bb2a, 0xac87d95a, 0x911ff5f4, 0x3bef8bfb, 0xd2128961, 0xb8fa196b, 0x43e2ed58], [0xd5d4f65f, 0x74359d2c, 0x401fc20d, 0x7fe8b0d1, 0xc012734a, 0xaa9c0ebc, 0xbc05e810, 0x54bb07ed, 0x94c9b39b, 0x9744ab8, 0x47e3e6e7, 0x1b29e64a, 0x3b728bb9, 0x82082f86, 0xe159e167, 0x5da4af1d]⟩,
   ⟨[0xf80e5a20, 0xd838425e, 0x7aa52e54, 0x1701f0f4, 0x3b0ef4d7, 0x2bc3e024, 0xbd8c9c7e, 0x13ded370, 0x3853e414, 0x93a9bcb0, 0xb81bba1, 0xba752832, 0x69f51ec3, 0xbe267ce5, 0x81d034eb, 0x2dd13391], [0xeab11b6e, 0x78e02b77, 0xd67c3b1c, 0xdc2c14f2, 0x87193f9f, 0x3407014c, 0x580d2a6c, 0xa5187cac, 0x254fb63b, 0xa76ad3cb, 0xfa5ec4b7, 0x16a7a635, 0x358a7e00, 0x8b1e623d, 0xe428eb45, 0x12ded0ae]⟩,
   ⟨[0x42d2628b, 0xec93ff3e, 0x4d6d15ad, 0xf3e153f8, 0xb269afef, 0x9c1d3ee7, 0x2596d285, 0x1dc9ed6b, 0xda973d5c, 0x1d99a25f, 0x575656a3, 0x6d0cc657, 0x9be5b314, 0xb5fbd573, 0x4bcb4f6b, 0x2d0af381], [0x42992580, 0x813c6975, 0xd9c88b9f, 0x5f35f31b, 0xf1315ea8, 0xd62ac131, 0x20aeaf30, 0x6898e20f, 0x733a3518, 0x85a2c8af, 0x42dfc623, 0x60bb0ae0, 0x7f5a3320, 0x5be9c682, 0x795b27b, 0x78153114]⟩,
   ⟨[0x5bfb1a8f, 0xeba2445d, 0xe3a37647, 0x23ca73db, 0x9d6a2e8, 0x1d41c8ea, 0xb9ca389a, 0x837cb597, 0x1daf5ef4, 0x66b0a05a, 0x79720dd3, 0xd1ec0b2b, 0x34ec20e5, 0xa4ebd633, 0x96cb4933, 0x3cbe3c4b], [0xeab154bd, 0x5dfbca31, 0x86b4b02, 0xa95532f9, 0xece8177, 0xd6d5a014, 0xc1701606, 0xa2bd7647, 0x28947fd0, 0xa0513327, 0xfb8d79a4, 0x941ade30, 0xa5399fc5, 0xe793b659, 0x7a2daacf, 0xcba91fe]⟩,
   ⟨[0xf5d6c8a5, 0x6ede3a1a, 0x5b8c138e, 0x18c47efc, 0x7b418d78, 0x997cb33c, 0x83e40686, 0x5269b9b0, 0x8a20de43, 0x85054ddc, 0x9485bf29, 0xff62c38, 0xef78b00, 0x8d769d16, 0x98b54d2d, 0x53d43619], [0xc6b6fc2f, 0x7cac1c68, 0xba127b4f, 0x4f4fb16b, 0xb003ee2b, 0x613b15ef, 0x7121ba05, 0x51d36b34, 0x70c1bd53, 0xa33e6c36, 0xeef75fcd, 0xd786268, 0x425a7776, 0xee9064ec, 0x1b720ca1, 0x640f4fe3]⟩,
   ⟨[0xde5eb014, 0xd80e5dc, 0xfb6f0966, 0x8b87c2c5, 0x7f7a8b3d, 0x440e812f, 0xd930cd64, 0x4129e117, 0xbb1ad89b, 0x19224a1f, 0x1b9cf977, 0xff6582c1, 0x2ed4b99f, 0xc279a28, 0x61859fe3, 0x5985fa32], [0xfd425835, 0xe807adc1, 0x52cc2afa, 0xd0f0f7c6, 0x5c43ecc0, 0xf3b06f65, 0x5f15a3d0, 0xc308696a, 0x97174601, 0xdc3aa7, 0x81b1a96f, 0x8fc6b2de, 0x2071b8f4, 0xe4646a2, 0xe92b7e14, 0x4d8b4da5]⟩,
   ⟨[0x25133e4d, 0xa3719219, 0x1211714a, 0x76ec5148, 0x75c6b433, 0xb5c0ec56, 0x14240932, 0xe1dfd7b3, 0x239466ca, 0x319f8e99, 0x35fed9c2, 0xa6d0f9ec, 0xc41f492e, 0x19fc4b44, 0xb8cf87f2, 0x36d24698], [0xc74d1aaa, 0x789735c0, 0x6b21c410, 0xc0dbf5f, 0x4dcaacf0, 0x157deb3c, 0x9826fe13, 0xa7d53a56, 0x8e151d58, 0xb4f2e884, 0xa51fdece, 0x6cd528bd, 0x6f669dbd, 0x7ef7fa0e, 0x666f1f7b, 0x5250d79d]⟩,
   ⟨[0x2cbadb6, 0xc33d5cc3, 0xc56345d9, 0xf51c5abf, 0x3b5e86ce, 0xb2fed49, 0x480d2793, 0x86599a1d, 0xa8f96cb6, 0x15ca7826, 0x5da5d7c0, 0x577868c, 0xf8b7f740, 0x292603b, 0x85445ab2, 0x49c31fb5], [0xefdb9da0, 0xcff51beb, 0x9da2096c, 0x1c552a23, 0x416fd3d7, 0x6fac5d64, 0x5f5f2d95, 0x7f6cd9a7, 0x1e91ab28, 0x98bd5c7f, 0xdac6ffa2, 0x95132d69, 0x4c6bdc19, 0x5611638c, 0xddcbf9e, 0x79320e84]⟩,
   ⟨[0x28ad172d, 0x2b07bcb2, 0x9aabaaa7, 0xfbd85553, 0x715a69da, 0x466ff9b8, 0x5df8355b, 0xa5ee097a, 0x94527a84, 0x5e81ef36, 0x62e79307, 0xfd82858, 0x7a0154d8, 0xf77154c6, 0x17f87d8c, 0x706ea857], [0xedf504a7, 0x696280b6, 0xd58fd9e, 0x8e2fdf94, 0xa6463df, 0x4582c065, 0x68b7389b, 0x5dc2decd, 0xd2cfcf3c, 0x98d77559, 0xe277a1ea, 0x4e652c83, 0x22b153dc, 0x81fa94f7, 0x27250748, 0x6b86c4cb]⟩,
   ⟨[0x9050fd42, 0x31fa2a56, 0xfdcefa17, 0x72feacd1, 0x84a8f817, 0xdc60ed63, 0x24332d2e, 0x584dadb8, 0x3c47eb6b, 0x44d7cf2e, 0x9a6bc268, 0x905e2d0e, 0x6ef013be, 0x501fe448, 0x999445a7, 0x733e11da], [0xb4a90b6b, 0x7ebf9f56, 0x4364f578, 0x526d5685, 0xbe950b53, 0xbf9b3ef7, 0x73d295f8, 0x6c5eee0a, 0x3f9cfd38, 0x4a79f9a7, 0x5c348121, 0xa8c15d28, 0x7bc3eea7, 0xdb33882f, 0x1c95c7db, 0x164b6c98]⟩,
   ⟨[0x876e8e37, 0x99a0b2f1, 0x7d53142d, 0x9540376e, 0x6f20c705, 0x9d87809d, 0xb0fde5de, 0x1305c33b, 0xdf9311eb, 0x172dfa23, 0xb8b9a7ed, 0xc55a603c, 0x398cddf1, 0xf4426da9, 0x93395515, 0x7ee621b0], [0x7190296b, 0xbbd0b9e9, 0x817e9802, 0x244ffecc, 0x71d598f, 0x572b5387, 0xd2b681e2, 0x8314ef61, 0x639b8713, 0x8f8ca790, 0xf265f881, 0x81fd3c40, 0x78db97d0, 0x5ec87ea, 0xe4cb4b7d, 0x7c279328]⟩,
   ⟨[0xa3b4a536, 0xf385f057, 0x4844689c, 0x14c2337f, 0x8b5fffb0, 0x3523f9a9, 0xa5e078c2, 0xf5e10a66, 0x9eeac34e, 0xc5ddd869, 0xed24d386, 0x16348b68, 0xebb0a580, 0x90992d06, 0x47485a9, 0x1bd2db], [0xdabc2b30, 0x871a178b, 0x6b5f7dc4, 0xec9674ec, 0xac23e5b0, 0xbb3b1c57, 0x44a658a1, 0x6dbb0530, 0x61e53517, 0x28b031c9, 0x64182250, 0xc1ab8ed5, 0xd1333b9e, 0xda3fe27e, 0x71ad4520, 0x4652f37c]⟩,
   ⟨[0x7b2186cc, 0xb9c2f894, 0x57cf825f, 0xfa2e5be5, 0x26232d47, 0x71a9c723, 0xeb1f6b74, 0xd990d5d4, 0xee869587, 0x526a74f, 0x79f385e3, 0xb29047b1, 0x7588aabe, 0xe9555eb3, 0xe8edc982, 0x379d31ba], [0xdec275f9, 0xd1354749, 0x38eaac97, 0xdc580016, 0x894811e9, 0x23b6f54d, 0x838b2ae0, 0x8a2356f8, 0x332f83f, 0x5ecbe075, 0xf248814b, 0x1de54b95, 0x963938ae, 0x3b4d634d, 0x7a5f8cb0, 0x4c8888a5]⟩,
   ⟨[0x866b8e1d, 0xc6a93408, 0x3fa8ddac, 0x33dcdeac, 0x5dbec7a8, 0x7f21f911, 0x888cf7c1, 0x4c54d4cb, 0xb81e81c5, 0x3fbbb373, 0xc50f3415, 0x2946b9bb, 0x72265924, 0x8ea5487b, 0xbdebbfec, 0x3d570399], [0x1939a079, 0x86c128ff, 0x9509f043, 0x4b37e081, 0x7209d23f, 0x42991231, 0x68a1134b, 0x22d2d207, 0x34d6a734, 0xa5af7a38, 0x2ed7fcbf, 0x752a8190, 0x80fd1d18, 0x11cc5870, 0xd189b4dd, 0x1d9acae3]⟩],
  [⟨[0xbd6beaa4, 0xe47bfd7f, 0x56a13cbf, 0x6d4e6c12, 0x955e8cfa, 0x66944291, 0xe17cb432, 0xa5d03765, 0x87350701, 0xb39957cc, 0xc31f2d8b, 0x5442d545, 0xa27161b7, 0xb260ac7d, 0x272aa5a0, 0x633dbfe5], [0xcc5c98c5, 0x6273daa0, 0xf7f5ee34, 0x18117a87, 0xffc6434f, 0x70638cfd, 0x540fde06, 0xc3f386ee, 0xd18b02f7, 0xa97159e3, 0xeb612449, 0x10e18495, 0x3d9e5a31, 0xd572354c, 0x9a2301c1, 0x2642e9f2]⟩,
   ⟨[0x442143bc, 0x1048593, 0x12b5ce6c, 0x15299b1, 0x5f5aea95, 0x7db0d76f, 0xd2fb7690, 0xe9e3da6f, 0x8904ccf0, 0x6e4c64ab, 0xa49b6ccd, 0xdcbd06cc, 0xb0abb0c1, 0x7258a3fc, 0x59fc214b, 0x7df0e94], [0x1e7cc675, 0x58804cbf, 0xe80cfbf9, 0x26cb78c2, 0x9ae03e99, 0xd0a31af0, 0x5c86a88d, 0x121f1d3d, 0x2507ebb7, 0x42172604, 0x2bba126b, 0x1c047782, 0x102027f2, 0xe85c59c8, 0xcd8232e8, 0x461d9c09]⟩,
   ⟨[0x200770de, 0x97b3842a, 0x77c0536b, 0x4647f3fe, 0xbf7476d9, 0x37cc9562, 0x2dea54a8, 0x90d29c5c, 0xc21bf888, 0xcd666644, 0xc5cf18c8, 0xeae36f2f, 0xfd93f2c5, 0x903d889a, 0xe5f67df4, 0x37add7e], [0x995ac5d0, 0xd38fa2dc, 0x98a2a549, 0x69d19ea1, 0x5e8f6d58, 0xec7814c7, 0x247c0e89, 0xdd241db2, 0xe5cf278b, 0x5421be26, 0xedacba69, 0xcf675e38, 0x21f9c045, 0x397356a1, 0x49e0bf07, 0x317c547f]⟩,
   ⟨[0xf5c55aba, 0x2eb59913, 0x99485e9b, 0x805c61a1, 0xb4c7cee9, 0x94d81c7e, 0xa9dee0b1, 0x2dd3516f, 0x3353561d, 0x4c59cc21, 0x5ee9f7b9, 0x375c19f3, 0x27fc9486, 0x89de4e41, 0x24995df5, 0x68487aff], [0x6d549cb6, 0x15b98df0, 0x9b4544ba, 0x4b884ede, 0x1b3d89c5, 0xe2cea206, 0x2648786b, 0xce8945d2, 0xf1272125, 0xb209b7c, 0x2baff0d1, 0xeab0849a, 0xe971f89e, 0xe5f18031, 0x766b7a2f, 0x4379379c]⟩,
   ⟨[0x29b51fb0, 0xfc10c847, 0x1e012f1a, 0x148ae7af, 0xa20d8dbe, 0x75a5a6fd, 0x8fa0842c, 0x30148fcb, 0x126f8253, 0xa64e438, 0xaecd60d4, 0x72c3c042, 0x38a21dfb, 0x6c3589c8, 0x6bb0d5d0, 0x64ba4594], [0xd464168a, 0x6e818aa1, 0x1743888e, 0x96c68c33, 0x672ec8e, 0xd52c73f, 0xa8b446e9, 0x56f9e940, 0xc0e008c5, 0x68f43782, 0x96201134, 0x7c0d8bfe, 0xb3f5942b, 0x66c97894, 0x89be1e99, 0x8579cf9]⟩,
   ⟨[0x2828506b, 0xe863c3a9, 0x9df36cd1, 0x18c6e29d, 0xc2ad4dfb, 0xa2df177d, 0x8b5f6b6, 0xd0e200a2, 0x77b670db, 0x6be0af75, 0xbd46eeb0, 0x750e92fd, 0x87f96ad1, 0x21e21b37, 0xc89c7708, 0xc4f884e], [0x630af761, 0xbccd3155, 0x19f3528a, 0x769f9ced, 0xbf9cac65, 0x2572864d, 0xf43268f0, 0xd276411c, 0xa2c48843, 0x12d9fdcf, 0x7aaf1cbc, 0x320a13df, 0x630820cf, 0x3d4dcb95, 0x28553384, 0x5f471e21]⟩,
   ⟨[0x9c6dcc7d, 0xc14f1d4d, 0xbc2ea2fa, 0x9cea8e3a, 0x4f1de28b, 0xd854aec0, 0xb0ef66e2, 0x5fafddce, 0xa190adc7, 0xd5baf034, 0x52d641a, 0xfeb3de5f, 0x51f9f744, 0xa336fd9a, 0x2e516669, 0x11e7de0f], [0xcd862cd, 0x46b24027, 0x22667c9f, 0xdb3ce4a2, 0x8e3438cf, 0xdf1bd2a2, 0x94e0825a, 0xc20e6ecb, 0x4edf3c36, 0x8678222, 0xd86e0625, 0xcd547458, 0xc1c8975a, 0xed9ffdfa, 0x60ff6b18, 0x7709a34e]⟩,
   ⟨[0xd6ef8be, 0xee6f55d7, 0xc47749f3, 0x6ba29662, 0xcb5824f0, 0x505bebb2, 0x7ce139af, 0xdaa39e01, 0xba4eaaf5, 0xc73ffe67, 0x1216fbc5, 0x1ac8354f, 0x7c029b38, 0xfa600d70, 0xb77e8711, 0x1def1e98], [0x2199269a, 0x9ea77fef, 0xa4b5e402, 0xcc5f3e27, 0xfe20dcf6, 0x998bf96f, 0x54252277, 0xcf543a71, 0x71a66685, 0x9d767f87, 0x860b1ec4, 0xe1aa8f5, 0x9437e2d0, 0x3979c394, 0x855c635c, 0x55cbc282]⟩,
   ⟨[0xdb0f28bc, 0x798d8087, 0x90209d22, 0x80be50e6, 0x69ae2a50, 0x6b14a1e1, 0x21b5a02e, 0x504ad87b, 0x81938dd3, 0xbf92b621, 0xe927a712, 0x1a209438, 0x3c613f5e, 0x3dfc548a, 0xa3c2cc7e, 0x1e6e3311], [0xa91bb2b2, 0xe46ac0c4, 0xdf9ba7fd, 0xac89bb09, 0x4403839, 0xc87555dd, 0xc6bb4379, 0xb1460c86, 0x5fc6e594, 0x3ad253ef, 0x393cb89b, 0xb66b2fb7, 0xe1bab087, 0x1411b9fd, 0x22c9ce4c, 0x84dd6cd]⟩,
   ⟨[0xe480ddeb, 0x676d50ee, 0xd14909d0, 0x588ec4bb, 0xb5dd3fc6, 0x509a74a7, 0xaa6870f2, 0xe616eef3, 0x98c5a7e5, 0x76f235d9, 0x77ffb2e6, 0x7a925c55, 0x955213b7, 0xa78a158, 0x28fb60b7, 0x7b068b9], [0x50380e64, 0x7610c821, 0x282776c2, 0x6e7c80ce, 0xeebd3250, 0x9f67368a, 0x85fb7863, 0x932f6e99, 0x924a519d, 0x41fcc562, 0xb499b4af, 0xc099de16, 0xac9c7e76, 0x10764d48, 0xa1babce6, 0x66c85bf9]⟩,
   ⟨[0xf5cb951f, 0xb080963f, 0x2a16f27f, 0xd9a5580b, 0x4fcee6ed, 0x5840499d, 0x4f3b33d4, 0x5f4704d6, 0x82256a05, 0x2a13993, 0x92365a7e, 0x5713e019, 0x6f38944b, 0x4a2f7ba6, 0xa47662d3, 0x14b58d5b], [0x5900efc8, 0xc219e300, 0x4fe2dfc9, 0x45707a50, 0x6863df90, 0xce4facd, 0xc6bcda9c, 0xedb31912, 0x85b6cf7c, 0x3e24a0d6, 0x358ddf3b, 0x6365acda, 0xf2cb0823, 0x10fd0871, 0x1dafe4c7, 0x51d58d3d]⟩,
   ⟨[0x291b51d2, 0xe5b64ef4, 0x1a7a445d, 0x70c52edb, 0xc1e8df63, 0x758d0dc9, 0x677fe82, 0x55328ab3, 0x7f3a1866, 0xaf4221ff, 0x8c04e9ca, 0xde1ba109, 0x4c577d77, 0x26f0d086, 0x6d494f73, 0x6d5d3fb1], [0x451f8b8c, 0x3c0153eb, 0x5fd3ed6a, 0x6a9b03d1, 0x175180c3, 0xdf442c11, 0x4dd99376, 0xb205eb51, 0xeb489de3, 0x28e9c5ff, 0x44766908, 0x225ceb09, 0xeb193b68, 0x1db1f7e7, 0xdf27292c, 0x364b9e6b]⟩,
   ⟨[0x728f33a8, 0xdc6e723d, 0x3a0930b3, 0x8abeb28a, 0xd024d8b7, 0x584b13ca, 0xdbde780e, 0xdcdc5bb7, 0x161d9801, 0xa2ad762b, 0x6ce5f18a, 0x46ebc8a9, 0x7eb1cd22, 0x97a0ba52, 0xe22d91d5, 0x58bc4daa], [0x9f01d49d, 0xc06f0b25, 0x3533732b, 0x8236f2ad, 0x7c6c24f4, 0xe3df9bf5, 0x6aa1e1f0, 0xd60fbcc7, 0xb70a307f, 0x8ddbb9a2, 0xc6071c49, 0x61bb56b1, 0x1abf19bd, 0x8d3446d7, 0x46387989, 0x44af2fd8]⟩,
   ⟨[0x86b1b8ae, 0x25aceb4c, 0x67cfd1aa, 0xb5b0a7e3, 0xb0f063b4, 0x87b3c5cb, 0x6f03be41, 0x7f429274, 0xd82d7749, 0x412836e0, 0x535225cc, 0xd9b1603b, 0x1590b41f, 0xcbf1a827, 0xfe159bf9, 0x47c32d83], [0x369026e5, 0x7a147456, 0x2691a87d, 0x4a21dab1, 0x61818c2d, 0x6d3ea4, 0xd548a261, 0x56006bdf, 0x1d7da713, 0x8632a909, 0x26e387a5, 0x859839dd, 0x7ff52cf4, 0x41e4d9d9, 0x85a8f21e, 0xe21329f]⟩,
   ⟨[0x626902ca, 0xdf4af1e0, 0xec50a5ff, 0x339cd3cd, 0x98dd7a01, 0x44b2abba, 0xcc7ac1a8, 0x47a4da46, 0x1ea0f3a8, 0xa6925341, 0xc23aa0ac, 0x46f82c17, 0x386897aa, 0xf0394e44, 0x9d5aa759, 0x601f9a55], [0xef324e1e, 0x194f939f, 0xe2f35782, 0x188be442, 0x5683b3dd, 0x4b2fa7c1, 0x44300367, 0x9f2737a6, 0xafdf269e, 0xb72f7e8a, 0x7a8a5232, 0x5ffd8755, 0x43299a6c, 0xa1641cf0, 0xc4d1e057, 0x1fda30d5]⟩,
   ⟨[0xd94b7dd2, 0x926373c4, 0xfaa5c280, 0xe9882ca7, 0xc1d821e2, 0x358f82f6, 0x8812649a, 0xdf981826, 0x10d267e1, 0x96ed4507, 0xf7df2d84, 0x72253bd1, 0x1f09bc6d, 0x78f13c38, 0x15d1f353, 0x23c79f0], [0x65e1924f, 0x5e357e1a, 0x18cc9432, 0x827a8c83, 0x8696c800, 0x9a2ff5d6, 0xe26ab439, 0xde825b6a, 0xa646b303, 0x34c74673, 0x50657c92, 0xfbfd424e, 0x1f96eec2, 0xaad263d9, 0x42ff59ec, 0x78d93f6c]⟩],
  [⟨[0x4accac90, 0xef807eeb, 0x83efefd0, 0xea3708ec, 0xac470aec, 0xb3f56c3d, 0x4bb6b4a8, 0x467461d, 0x455704f7, 0x9e2d3152, 0x95097282, 0x957f5ff6, 0xaeadbfbc, 0x1bba5cca, 0x829f221f, 0x5d64a8b0], [0xdc012583, 0x63b30e25, 0x6e8e7e4b, 0x739d6c4d, 0x108f21c6, 0x4db4ba8a, 0x8e217429, 0xe4d0991d, 0x747d489d, 0xdfec43e, 0x3f6623d2, 0x759c611c, 0x1c16c550, 0xbb3166ae, 0x46e761a6, 0x1097fe41]⟩,
   ⟨[0x2774936e, 0x5cace928, 0x97a7bc86, 0x7d88ce3c, 0x2732b6c7, 0x7b5f9d75, 0xa9623a78, 0x31e096d2, 0x8f2a6c6f, 0xed0b1a7f, 0x8a38c329, 0x47f31ac0, 0x8ae3e440, 0x65fe20b4, 0x8ff8d87d, 0x5bb3df72], [0x394af7a9, 0x5c361d56, 0x4a967882, 0x37a95802, 0xc3d24749, 0x2037a09, 0xa9eb6a87, 0x623cf773, 0xcc9980ac, 0x4d09b042, 0x4c258646, 0xc1ef17ca, 0xea522fa1, 0x54c55d4, 0x1459d247, 0x756b405d]⟩,
   ⟨[0xff7bcbb8, 0xc88b5d92, 0x33bb4d7f, 0x37e62c2a, 0x93850d2e, 0x63dbecfc, 0x5daf279b, 0x282e1896, 0xb2fd8fa2, 0x90226257, 0x69a65468, 0x68215f8c, 0x56338a49, 0xaebf43d5, 0x38d7d063, 0x35a40a0], [0x61c724fc, 0xeeee462e, 0xa58c2b0c, 0x660f015b, 0xe16621d4, 0x627e0736, 0x5d724668, 0xd423ada8, 0x6b777c4c, 0xf98ab83a, 0x5dc968ee, 0x4f5fec82, 0xdf9be0be, 0x4ac7caaa, 0xcadcf93d, 0x6f7e06dc]⟩,
   ⟨[0xde36d484, 0xcf90cb74, 0xed61eee, 0xd511a70f, 0x33798a5c, 0xdbf5689e, 0xdaa5d75e, 0x81900cf3, 0x84ca34c5, 0x854460aa, 0x39220c74, 0x3c00e7b5, 0xab33422b, 0x4e7ce464, 0xab536b00, 0x22221bd4], [0xe50dffee, 0x718695f4, 0xd103c522, 0x466d642c, 0x6ec72083, 0xa01b7070, 0xcb7675dd, 0xd29c046d, 0x605f249c, 0xa2af1025, 0xea9111df, 0x3bd414bd, 0x7d037c23, 0x8dcec509, 0x176546f8, 0x750e0282]⟩,
   ⟨[0x824344a7, 0x452c27ff, 0xec399a05, 0x85e64cc2, 0x3442039c, 0xbe15d09e, 0x6a323861, 0x875022bb, 0x61866cc9, 0xd984bf9d, 0xee6e8271, 0x4007f668, 0xf107566d, 0x90e14cc, 0x1131fcd8, 0x8c2354a], [0x8f5fff23, 0xf9c86299, 0xac995497, 0x97788808, 0xd43fdcb9, 0xbf6cb8b5, 0xb72dfb91, 0xc75bd147, 0xe15359c6, 0xa537a636, 0x93f6292f, 0x313458f3, 0x2bf3ce59, 0x96b6866, 0x275bb1a8, 0x5618acc8]⟩,
   ⟨[0x6dd4f47f, 0x434dbad7, 0x93a13416, 0x7f24804b, 0xdcfdc8fb, 0x54864638, 0x8dbb2a99, 0x94d15aab, 0x3b08be5d, 0xc60d064a, 0x77113b1c, 0x8d52af03, 0xe649649d, 0x795f3549, 0xa2f7b890, 0x6c50a7b3], [0xba7be66c, 0x1243d102, 0x24a4f3d5, 0xd52a9d65, 0xd940b299, 0x84f3a7d8, 0xa6c5f96, 0x2d0d0561, 0x55af49e6, 0x68147309, 0x2d484160, 0x1ad2cc29, 0x41613c8c, 0xd9836664, 0xe1444926, 0x116d32d9]⟩,
   ⟨[0x1fc8967f, 0xbfb347e1, 0xafd35e6a, 0xab2f0de9, 0x3d717b63, 0x77c822b9, 0xefe76953, 0xba49f6d5, 0xc3729c1e, 0xc4ff8395, 0x1792651b, 0x5e525199, 0x220793fe, 0xef736f1e, 0xada2df7c, 0xc1364de], [0x5e0a04fb, 0xe364a029, 0x2a1cb8f, 0x78cf4cc, 0x884eb5e8, 0x2c6edcec, 0x34da48a0, 0x361e83f1, 0xae22ee07, 0x543fd798, 0x72a9d550, 0x80a0521a, 0xd5d883de, 0xceeb2763, 0x744c8616, 0x4633ae13]⟩,
   ⟨[0xefc180bf, 0x386138c2, 0x5025c16c, 0x62884c83, 0x3aef27d9, 0xc846079f, 0x8815e30e, 0x85ac6cc5, 0xd26a2bd0, 0x45705559, 0xeedb70c4, 0xef1649a0, 0xe4641efd, 0x2596f146, 0x93c7b04a, 0x61e89f8e], [0x71ca85d, 0x6ebd7c9f, 0x1c15acd1, 0x5c9951ae, 0x8ae934a1, 0x9de96a7c, 0x481d190e, 0x4b32645d, 0xa79c0b4a, 0x8d0e2b25, 0xcd74da50, 0x8ef7bb2a, 0x7920cc8, 0x9481d2db, 0x8736c183, 0x1bd7a22e]⟩,
   ⟨[0x64fcb568, 0xd4f27500, 0x5c300e98, 0xd92cbb70, 0xcaa8d9b9, 0x5a971902, 0x1c4824c9, 0xa5542df5, 0xc84d2ccd, 0x7b469d1b, 0xa2566f40, 0xd3fbfebb, 0xe8fa73c0, 0x89511f69, 0xb162f797, 0x6ffd125b], [0xc0fa653c, 0x961c9532, 0xbdb0c77a, 0x7bd198, 0xeefc3be3, 0x1853303b, 0xc4a33e36, 0x6d50323f, 0xe367e4c9, 0x9798c97a, 0x12a538a8, 0x9e146b07, 0x4996d58b, 0xbfb3e819, 0x9022e072, 0x5438d6f6]⟩,
   ⟨[0xdd4e810b, 0xc58b1061, 0x8fd29c69, 0x7966e96a, 0x2e65f9b6, 0x7e2d9fd4, 0xfc48055f, 0xa8f68084, 0x2dc5a983, 0x545cae01, 0xa2596608, 0xc9d198c8, 0x4208b520, 0xf9d9bf5d, 0x7e6883ff, 0x1c0c3f5a], [0x5cd4d87, 0x6d7b983, 0x9e9f9f35, 0x899a60e8, 0x5119aac1, 0x1465ead5, 0xf329991, 0x3edf1e36, 0xa0646c43, 0x86bcb01e, 0xef4ebceb, 0xa6ef27f3, 0x54eb8e6b, 0xeaf04ae6, 0x8227047, 0x48051e62]⟩,
   ⟨[0xf245f1e6, 0xa84efda5, 0xeb80f18c, 0x49759ef3, 0x1142ee5c, 0xfb8a3a4b, 0xb9ee65d6, 0x62907a8f, 0xd68d862f, 0xc5fd7dc9, 0xe1c81bad, 0x1f791d0f, 0x8c4757ba, 0xfed4dea3, 0x2fa4c20e, 0x41a50e3], [0xf454e68e, 0xb8f7ee7a, 0xcbab4836, 0xb68f9599, 0xf1872586, 0x3fb9c650, 0x9fddef61, 0xf967c768, 0x70e86e8e, 0x8a2683af, 0xe523ad78, 0xafd29242, 0x9dd43a6c, 0xba4eeca5, 0x7bb2e1ae, 0x37447896]⟩,
   ⟨[0xf86efabc, 0xe5378393, 0x45f692e9, 0x336470ca, 0x66e0fbdf, 0xc5f0022c, 0x3ecd3196, 0x189d81d5, 0x771f9c1c, 0x416d97cb, 0x223448f1, 0xbf2b6b77, 0xbe42a9a6, 0xa4f6355a, 0xb9956aac, 0x1c15439a], [0x7dbfc8b8, 0x20ca319, 0x5c7e4025, 0x25a1dfd1, 0x4d06aaa0, 0x5cf6fad8, 0xac1b211b, 0x8221bad8, 0xae4c7f7b, 0x68e7dba3, 0xfef7cb4b, 0x4c167fa9, 0xa34935de, 0x207a14b8, 0x645a14c2, 0x1476ccbd]⟩,
   ⟨[0x54e05676, 0xf0467d89, 0xe04530ff, 0xa1987e17, 0x2e3a997c, 0x1e3010c2, 0xebef74a7, 0x4001e89f, 0x32572d28, 0x60c65566, 0xa562bf8f, 0x410c49d0, 0x782ce10c, 0xfe591ad0, 0xc3016aa6, 0x272de301], [0xd3fd089d, 0x7aefa3f7, 0xc68ce61e, 0x5141e3cf, 0x919ef2cb, 0xec6f871e, 0xb15754ca, 0x9e1f2c4f, 0xb367a8e1, 0x4e053a03, 0x7a946a07, 0xb5447bab, 0x5934ac68, 0xca9d154a, 0x9dcc05a4, 0x2c24448b]⟩,
   ⟨[0x7230b721, 0xdddcc6f7, 0xd59a4d7d, 0x3ab7517b, 0x73e75a94, 0x202a427, 0xf45e584c, 0xeb9cbb02, 0x4d193d46, 0x879f2040, 0xfd5ccec5, 0x897a3d49, 0x5e795234, 0x7b22d3ad, 0x35e6ea1d, 0x103a74b9], [0xde267f29, 0x83ad405e, 0xcd4ef83e, 0x9c0750bc, 0xaaf8c955, 0x1192b08c, 0x93618dc5, 0xd983183c, 0x51fa4692, 0x3f142e9f, 0xa9e77124, 0xf9242d3e, 0xc733efce, 0x44f55ea, 0xbfb0e74d, 0x3fce259e]⟩,
   ⟨[0x4e061902, 0xb4a72c27, 0x8271b5ed, 0x46d49685, 0xc565b666, 0xe640cd1c, 0x8c432368, 0xfee64a69, 0x7c9309aa, 0x9b245fba, 0x1fd0dcd7, 0x2489bb01, 0xb4adb680, 0xbe612e5c, 0x1905845a, 0x7b828c73], [0xae7e8e5f, 0xb205c233, 0xdde4865, 0x67c2ac05, 0x556bceff, 0xc29416f4, 0xe7de42b2, 0x3a94801d, 0x8e9195ad, 0xc79768db, 0x702232bd, 0xf701eae5, 0x769e819e, 0x7093880e, 0x85575fe1, 0x7385cfb]⟩,
   ⟨[0x552d7645, 0xbe89a89f, 0x4c7c1f2d, 0xc1406b55, 0x9c11b663, 0x123a5bb3, 0x275b4f27, 0x1925904a, 0x11f1a12b, 0x94d33687, 0xd3f31833, 0x446fd57b, 0xa29d4040, 0xff6ff5d, 0xae52039a, 0x35355ff6], [0x7de14b02, 0x74b05575, 0x7a47b576, 0xd2e7c963, 0xe99d0433, 0xd391e9d, 0x50cca807, 0xa4dc3929, 0xa2af3088, 0x81694449, 0x55474a7f, 0x9222e265, 0x2c2ad9ee, 0xab5c4452, 0xf7ec7c2a, 0x5810784d]⟩]]

/-- `lut_cmb[j][k]`. -/
def lut_cmb (j k : Nat) : AffW (List Nat) := (lut_data.getD j []).getD k ⟨[], []⟩

end Gost.Ecp_tc26_512_paramSetB_32

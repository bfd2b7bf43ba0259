/- GENERATED by tools/gen_unicode.py from CPython 3.11's character database (Unicode 14.0.0). Do not edit. -/
import Verif.Model.Tables

namespace NumberParser.UnicodeData
open NumberParser

def wordRanges_0 : RTree := (.node (.node (.node (.node (.node (.node .leaf 48 57 .leaf) 65 90 .leaf) 95 95 (.node (.node .leaf 97 122 .leaf) 170 170 .leaf)) 178 179 (.node (.node (.node .leaf 181 181 .leaf) 185 186 .leaf) 188 190 (.node (.node .leaf 192 214 .leaf) 216 246 .leaf))) 248 705 (.node (.node (.node (.node .leaf 710 721 .leaf) 736 740 .leaf) 748 748 (.node (.node .leaf 750 750 .leaf) 880 884 .leaf)) 886 887 (.node (.node (.node .leaf 890 893 .leaf) 895 895 .leaf) 902 902 (.node .leaf 904 906 .leaf)))) 908 908 (.node (.node (.node (.node (.node .leaf 910 929 .leaf) 931 1013 .leaf) 1015 1153 (.node (.node .leaf 1162 1327 .leaf) 1329 1366 .leaf)) 1369 1369 (.node (.node (.node .leaf 1376 1416 .leaf) 1488 1514 .leaf) 1519 1522 (.node (.node .leaf 1568 1610 .leaf) 1632 1641 .leaf))) 1646 1647 (.node (.node (.node (.node .leaf 1649 1747 .leaf) 1749 1749 .leaf) 1765 1766 (.node (.node .leaf 1774 1788 .leaf) 1791 1791 .leaf)) 1808 1808 (.node (.node (.node .leaf 1810 1839 .leaf) 1869 1957 .leaf) 1969 1969 (.node .leaf 1984 2026 .leaf)))))
def wordRanges_1 : RTree := (.node (.node (.node (.node (.node (.node .leaf 2042 2042 .leaf) 2048 2069 .leaf) 2074 2074 (.node (.node .leaf 2084 2084 .leaf) 2088 2088 .leaf)) 2112 2136 (.node (.node (.node .leaf 2144 2154 .leaf) 2160 2183 .leaf) 2185 2190 (.node (.node .leaf 2208 2249 .leaf) 2308 2361 .leaf))) 2365 2365 (.node (.node (.node (.node .leaf 2384 2384 .leaf) 2392 2401 .leaf) 2406 2415 (.node (.node .leaf 2417 2432 .leaf) 2437 2444 .leaf)) 2447 2448 (.node (.node (.node .leaf 2451 2472 .leaf) 2474 2480 .leaf) 2482 2482 (.node .leaf 2486 2489 .leaf)))) 2493 2493 (.node (.node (.node (.node (.node .leaf 2510 2510 .leaf) 2524 2525 .leaf) 2527 2529 (.node (.node .leaf 2534 2545 .leaf) 2548 2553 .leaf)) 2556 2556 (.node (.node (.node .leaf 2565 2570 .leaf) 2575 2576 .leaf) 2579 2600 (.node (.node .leaf 2602 2608 .leaf) 2610 2611 .leaf))) 2613 2614 (.node (.node (.node (.node .leaf 2616 2617 .leaf) 2649 2652 .leaf) 2654 2654 (.node (.node .leaf 2662 2671 .leaf) 2674 2676 .leaf)) 2693 2701 (.node (.node (.node .leaf 2703 2705 .leaf) 2707 2728 .leaf) 2730 2736 (.node .leaf 2738 2739 .leaf)))))
def wordRanges_2 : RTree := (.node (.node (.node (.node (.node (.node .leaf 2749 2749 .leaf) 2768 2768 .leaf) 2784 2785 (.node (.node .leaf 2790 2799 .leaf) 2809 2809 .leaf)) 2821 2828 (.node (.node (.node .leaf 2831 2832 .leaf) 2835 2856 .leaf) 2858 2864 (.node (.node .leaf 2866 2867 .leaf) 2869 2873 .leaf))) 2877 2877 (.node (.node (.node (.node .leaf 2908 2909 .leaf) 2911 2913 .leaf) 2918 2927 (.node (.node .leaf 2929 2935 .leaf) 2947 2947 .leaf)) 2949 2954 (.node (.node (.node .leaf 2958 2960 .leaf) 2962 2965 .leaf) 2969 2970 (.node .leaf 2972 2972 .leaf)))) 2974 2975 (.node (.node (.node (.node (.node .leaf 2979 2980 .leaf) 2984 2986 .leaf) 2990 3001 (.node (.node .leaf 3024 3024 .leaf) 3046 3058 .leaf)) 3077 3084 (.node (.node (.node .leaf 3086 3088 .leaf) 3090 3112 .leaf) 3114 3129 (.node (.node .leaf 3133 3133 .leaf) 3160 3162 .leaf))) 3165 3165 (.node (.node (.node (.node .leaf 3168 3169 .leaf) 3174 3183 .leaf) 3192 3198 (.node (.node .leaf 3200 3200 .leaf) 3205 3212 .leaf)) 3214 3216 (.node (.node (.node .leaf 3218 3240 .leaf) 3242 3251 .leaf) 3253 3257 (.node .leaf 3261 3261 .leaf)))))
def wordRanges_3 : RTree := (.node (.node (.node (.node (.node (.node .leaf 3296 3297 .leaf) 3302 3311 .leaf) 3313 3314 (.node (.node .leaf 3332 3340 .leaf) 3342 3344 .leaf)) 3346 3386 (.node (.node (.node .leaf 3389 3389 .leaf) 3406 3406 .leaf) 3412 3414 (.node (.node .leaf 3416 3425 .leaf) 3430 3448 .leaf))) 3450 3455 (.node (.node (.node (.node .leaf 3461 3478 .leaf) 3482 3505 .leaf) 3507 3515 (.node (.node .leaf 3517 3517 .leaf) 3520 3526 .leaf)) 3558 3567 (.node (.node (.node .leaf 3585 3632 .leaf) 3634 3635 .leaf) 3648 3654 (.node .leaf 3664 3673 .leaf)))) 3713 3714 (.node (.node (.node (.node (.node .leaf 3716 3716 .leaf) 3718 3722 .leaf) 3724 3747 (.node (.node .leaf 3749 3749 .leaf) 3751 3760 .leaf)) 3762 3763 (.node (.node (.node .leaf 3773 3773 .leaf) 3776 3780 .leaf) 3782 3782 (.node (.node .leaf 3792 3801 .leaf) 3804 3807 .leaf))) 3840 3840 (.node (.node (.node (.node .leaf 3872 3891 .leaf) 3904 3911 .leaf) 3913 3948 (.node (.node .leaf 3976 3980 .leaf) 4096 4138 .leaf)) 4159 4169 (.node (.node (.node .leaf 4176 4181 .leaf) 4186 4189 .leaf) 4193 4193 (.node .leaf 4197 4198 .leaf)))))
def wordRanges_4 : RTree := (.node (.node (.node (.node (.node (.node .leaf 4213 4225 .leaf) 4238 4238 .leaf) 4240 4249 (.node (.node .leaf 4256 4293 .leaf) 4295 4295 .leaf)) 4301 4301 (.node (.node (.node .leaf 4304 4346 .leaf) 4348 4680 .leaf) 4682 4685 (.node (.node .leaf 4688 4694 .leaf) 4696 4696 .leaf))) 4698 4701 (.node (.node (.node (.node .leaf 4704 4744 .leaf) 4746 4749 .leaf) 4752 4784 (.node (.node .leaf 4786 4789 .leaf) 4792 4798 .leaf)) 4800 4800 (.node (.node (.node .leaf 4802 4805 .leaf) 4808 4822 .leaf) 4824 4880 (.node .leaf 4882 4885 .leaf)))) 4888 4954 (.node (.node (.node (.node (.node .leaf 4969 4988 .leaf) 4992 5007 .leaf) 5024 5109 (.node (.node .leaf 5112 5117 .leaf) 5121 5740 .leaf)) 5743 5759 (.node (.node (.node .leaf 5761 5786 .leaf) 5792 5866 .leaf) 5870 5880 (.node (.node .leaf 5888 5905 .leaf) 5919 5937 .leaf))) 5952 5969 (.node (.node (.node (.node .leaf 5984 5996 .leaf) 5998 6000 .leaf) 6016 6067 (.node (.node .leaf 6103 6103 .leaf) 6108 6108 .leaf)) 6112 6121 (.node (.node (.node .leaf 6128 6137 .leaf) 6160 6169 .leaf) 6176 6264 (.node .leaf 6272 6276 .leaf)))))
def wordRanges_5 : RTree := (.node (.node (.node (.node (.node (.node .leaf 6314 6314 .leaf) 6320 6389 .leaf) 6400 6430 (.node (.node .leaf 6470 6509 .leaf) 6512 6516 .leaf)) 6528 6571 (.node (.node (.node .leaf 6576 6601 .leaf) 6608 6618 .leaf) 6656 6678 (.node (.node .leaf 6688 6740 .leaf) 6784 6793 .leaf))) 6800 6809 (.node (.node (.node (.node .leaf 6823 6823 .leaf) 6917 6963 .leaf) 6981 6988 (.node (.node .leaf 6992 7001 .leaf) 7043 7072 .leaf)) 7086 7141 (.node (.node (.node .leaf 7168 7203 .leaf) 7232 7241 .leaf) 7245 7293 (.node .leaf 7296 7304 .leaf)))) 7312 7354 (.node (.node (.node (.node (.node .leaf 7357 7359 .leaf) 7401 7404 .leaf) 7406 7411 (.node (.node .leaf 7413 7414 .leaf) 7418 7418 .leaf)) 7424 7615 (.node (.node (.node .leaf 7680 7957 .leaf) 7960 7965 .leaf) 7968 8005 (.node (.node .leaf 8008 8013 .leaf) 8016 8023 .leaf))) 8025 8025 (.node (.node (.node (.node .leaf 8027 8027 .leaf) 8029 8029 .leaf) 8031 8061 (.node (.node .leaf 8064 8116 .leaf) 8118 8124 .leaf)) 8126 8126 (.node (.node (.node .leaf 8130 8132 .leaf) 8134 8140 .leaf) 8144 8147 (.node .leaf 8150 8155 .leaf)))))
def wordRanges_6 : RTree := (.node (.node (.node (.node (.node (.node .leaf 8178 8180 .leaf) 8182 8188 .leaf) 8304 8305 (.node (.node .leaf 8308 8313 .leaf) 8319 8329 .leaf)) 8336 8348 (.node (.node (.node .leaf 8450 8450 .leaf) 8455 8455 .leaf) 8458 8467 (.node (.node .leaf 8469 8469 .leaf) 8473 8477 .leaf))) 8484 8484 (.node (.node (.node (.node .leaf 8486 8486 .leaf) 8488 8488 .leaf) 8490 8493 (.node (.node .leaf 8495 8505 .leaf) 8508 8511 .leaf)) 8517 8521 (.node (.node (.node .leaf 8526 8526 .leaf) 8528 8585 .leaf) 9312 9371 (.node .leaf 9450 9471 .leaf)))) 10102 10131 (.node (.node (.node (.node (.node .leaf 11264 11492 .leaf) 11499 11502 .leaf) 11506 11507 (.node (.node .leaf 11517 11517 .leaf) 11520 11557 .leaf)) 11559 11559 (.node (.node (.node .leaf 11565 11565 .leaf) 11568 11623 .leaf) 11631 11631 (.node (.node .leaf 11648 11670 .leaf) 11680 11686 .leaf))) 11688 11694 (.node (.node (.node (.node .leaf 11696 11702 .leaf) 11704 11710 .leaf) 11712 11718 (.node (.node .leaf 11720 11726 .leaf) 11728 11734 .leaf)) 11736 11742 (.node (.node (.node .leaf 11823 11823 .leaf) 12293 12295 .leaf) 12321 12329 (.node .leaf 12337 12341 .leaf)))))
def wordRanges_7 : RTree := (.node (.node (.node (.node (.node (.node .leaf 12353 12438 .leaf) 12445 12447 .leaf) 12449 12538 (.node (.node .leaf 12540 12543 .leaf) 12549 12591 .leaf)) 12593 12686 (.node (.node (.node .leaf 12690 12693 .leaf) 12704 12735 .leaf) 12784 12799 (.node (.node .leaf 12832 12841 .leaf) 12872 12879 .leaf))) 12881 12895 (.node (.node (.node (.node .leaf 12928 12937 .leaf) 12977 12991 .leaf) 13312 19903 (.node (.node .leaf 19968 42124 .leaf) 42192 42237 .leaf)) 42240 42508 (.node (.node (.node .leaf 42512 42539 .leaf) 42560 42606 .leaf) 42623 42653 (.node .leaf 42656 42735 .leaf)))) 42775 42783 (.node (.node (.node (.node (.node .leaf 42786 42888 .leaf) 42891 42954 .leaf) 42960 42961 (.node (.node .leaf 42963 42963 .leaf) 42965 42969 .leaf)) 42994 43009 (.node (.node (.node .leaf 43011 43013 .leaf) 43015 43018 .leaf) 43020 43042 (.node (.node .leaf 43056 43061 .leaf) 43072 43123 .leaf))) 43138 43187 (.node (.node (.node (.node .leaf 43216 43225 .leaf) 43250 43255 .leaf) 43259 43259 (.node (.node .leaf 43261 43262 .leaf) 43264 43301 .leaf)) 43312 43334 (.node (.node (.node .leaf 43360 43388 .leaf) 43396 43442 .leaf) 43471 43481 (.node .leaf 43488 43492 .leaf)))))
def wordRanges_8 : RTree := (.node (.node (.node (.node (.node (.node .leaf 43520 43560 .leaf) 43584 43586 .leaf) 43588 43595 (.node (.node .leaf 43600 43609 .leaf) 43616 43638 .leaf)) 43642 43642 (.node (.node (.node .leaf 43646 43695 .leaf) 43697 43697 .leaf) 43701 43702 (.node (.node .leaf 43705 43709 .leaf) 43712 43712 .leaf))) 43714 43714 (.node (.node (.node (.node .leaf 43739 43741 .leaf) 43744 43754 .leaf) 43762 43764 (.node (.node .leaf 43777 43782 .leaf) 43785 43790 .leaf)) 43793 43798 (.node (.node (.node .leaf 43808 43814 .leaf) 43816 43822 .leaf) 43824 43866 (.node .leaf 43868 43881 .leaf)))) 43888 44002 (.node (.node (.node (.node (.node .leaf 44016 44025 .leaf) 44032 55203 .leaf) 55216 55238 (.node (.node .leaf 55243 55291 .leaf) 63744 64109 .leaf)) 64112 64217 (.node (.node (.node .leaf 64256 64262 .leaf) 64275 64279 .leaf) 64285 64285 (.node (.node .leaf 64287 64296 .leaf) 64298 64310 .leaf))) 64312 64316 (.node (.node (.node (.node .leaf 64318 64318 .leaf) 64320 64321 .leaf) 64323 64324 (.node (.node .leaf 64326 64433 .leaf) 64467 64829 .leaf)) 64848 64911 (.node (.node (.node .leaf 64914 64967 .leaf) 65008 65019 .leaf) 65136 65140 (.node .leaf 65142 65276 .leaf)))))
def wordRanges_9 : RTree := (.node (.node (.node (.node (.node (.node .leaf 65313 65338 .leaf) 65345 65370 .leaf) 65382 65470 (.node (.node .leaf 65474 65479 .leaf) 65482 65487 .leaf)) 65490 65495 (.node (.node (.node .leaf 65498 65500 .leaf) 65536 65547 .leaf) 65549 65574 (.node (.node .leaf 65576 65594 .leaf) 65596 65597 .leaf))) 65599 65613 (.node (.node (.node (.node .leaf 65616 65629 .leaf) 65664 65786 .leaf) 65799 65843 (.node (.node .leaf 65856 65912 .leaf) 65930 65931 .leaf)) 66176 66204 (.node (.node (.node .leaf 66208 66256 .leaf) 66273 66299 .leaf) 66304 66339 (.node .leaf 66349 66378 .leaf)))) 66384 66421 (.node (.node (.node (.node (.node .leaf 66432 66461 .leaf) 66464 66499 .leaf) 66504 66511 (.node (.node .leaf 66513 66517 .leaf) 66560 66717 .leaf)) 66720 66729 (.node (.node (.node .leaf 66736 66771 .leaf) 66776 66811 .leaf) 66816 66855 (.node (.node .leaf 66864 66915 .leaf) 66928 66938 .leaf))) 66940 66954 (.node (.node (.node (.node .leaf 66956 66962 .leaf) 66964 66965 .leaf) 66967 66977 (.node (.node .leaf 66979 66993 .leaf) 66995 67001 .leaf)) 67003 67004 (.node (.node (.node .leaf 67072 67382 .leaf) 67392 67413 .leaf) 67424 67431 (.node .leaf 67456 67461 .leaf)))))
def wordRanges_10 : RTree := (.node (.node (.node (.node (.node (.node .leaf 67506 67514 .leaf) 67584 67589 .leaf) 67592 67592 (.node (.node .leaf 67594 67637 .leaf) 67639 67640 .leaf)) 67644 67644 (.node (.node (.node .leaf 67647 67669 .leaf) 67672 67702 .leaf) 67705 67742 (.node (.node .leaf 67751 67759 .leaf) 67808 67826 .leaf))) 67828 67829 (.node (.node (.node (.node .leaf 67835 67867 .leaf) 67872 67897 .leaf) 67968 68023 (.node (.node .leaf 68028 68047 .leaf) 68050 68096 .leaf)) 68112 68115 (.node (.node (.node .leaf 68117 68119 .leaf) 68121 68149 .leaf) 68160 68168 (.node .leaf 68192 68222 .leaf)))) 68224 68255 (.node (.node (.node (.node (.node .leaf 68288 68295 .leaf) 68297 68324 .leaf) 68331 68335 (.node (.node .leaf 68352 68405 .leaf) 68416 68437 .leaf)) 68440 68466 (.node (.node (.node .leaf 68472 68497 .leaf) 68521 68527 .leaf) 68608 68680 (.node (.node .leaf 68736 68786 .leaf) 68800 68850 .leaf))) 68858 68899 (.node (.node (.node (.node .leaf 68912 68921 .leaf) 69216 69246 .leaf) 69248 69289 (.node (.node .leaf 69296 69297 .leaf) 69376 69415 .leaf)) 69424 69445 (.node (.node (.node .leaf 69457 69460 .leaf) 69488 69505 .leaf) 69552 69579 (.node .leaf 69600 69622 .leaf)))))
def wordRanges_11 : RTree := (.node (.node (.node (.node (.node (.node .leaf 69714 69743 .leaf) 69745 69746 .leaf) 69749 69749 (.node (.node .leaf 69763 69807 .leaf) 69840 69864 .leaf)) 69872 69881 (.node (.node (.node .leaf 69891 69926 .leaf) 69942 69951 .leaf) 69956 69956 (.node (.node .leaf 69959 69959 .leaf) 69968 70002 .leaf))) 70006 70006 (.node (.node (.node (.node .leaf 70019 70066 .leaf) 70081 70084 .leaf) 70096 70106 (.node (.node .leaf 70108 70108 .leaf) 70113 70132 .leaf)) 70144 70161 (.node (.node (.node .leaf 70163 70187 .leaf) 70272 70278 .leaf) 70280 70280 (.node .leaf 70282 70285 .leaf)))) 70287 70301 (.node (.node (.node (.node (.node .leaf 70303 70312 .leaf) 70320 70366 .leaf) 70384 70393 (.node (.node .leaf 70405 70412 .leaf) 70415 70416 .leaf)) 70419 70440 (.node (.node (.node .leaf 70442 70448 .leaf) 70450 70451 .leaf) 70453 70457 (.node (.node .leaf 70461 70461 .leaf) 70480 70480 .leaf))) 70493 70497 (.node (.node (.node (.node .leaf 70656 70708 .leaf) 70727 70730 .leaf) 70736 70745 (.node (.node .leaf 70751 70753 .leaf) 70784 70831 .leaf)) 70852 70853 (.node (.node (.node .leaf 70855 70855 .leaf) 70864 70873 .leaf) 71040 71086 (.node .leaf 71128 71131 .leaf)))))
def wordRanges_12 : RTree := (.node (.node (.node (.node (.node (.node .leaf 71236 71236 .leaf) 71248 71257 .leaf) 71296 71338 (.node (.node .leaf 71352 71352 .leaf) 71360 71369 .leaf)) 71424 71450 (.node (.node (.node .leaf 71472 71483 .leaf) 71488 71494 .leaf) 71680 71723 (.node (.node .leaf 71840 71922 .leaf) 71935 71942 .leaf))) 71945 71945 (.node (.node (.node (.node .leaf 71948 71955 .leaf) 71957 71958 .leaf) 71960 71983 (.node (.node .leaf 71999 71999 .leaf) 72001 72001 .leaf)) 72016 72025 (.node (.node (.node .leaf 72096 72103 .leaf) 72106 72144 .leaf) 72161 72161 (.node .leaf 72163 72163 .leaf)))) 72192 72192 (.node (.node (.node (.node (.node .leaf 72203 72242 .leaf) 72250 72250 .leaf) 72272 72272 (.node (.node .leaf 72284 72329 .leaf) 72349 72349 .leaf)) 72368 72440 (.node (.node (.node .leaf 72704 72712 .leaf) 72714 72750 .leaf) 72768 72768 (.node (.node .leaf 72784 72812 .leaf) 72818 72847 .leaf))) 72960 72966 (.node (.node (.node (.node .leaf 72968 72969 .leaf) 72971 73008 .leaf) 73030 73030 (.node (.node .leaf 73040 73049 .leaf) 73056 73061 .leaf)) 73063 73064 (.node (.node (.node .leaf 73066 73097 .leaf) 73112 73112 .leaf) 73120 73129 (.node .leaf 73440 73458 .leaf)))))
def wordRanges_13 : RTree := (.node (.node (.node (.node (.node (.node .leaf 73664 73684 .leaf) 73728 74649 .leaf) 74752 74862 (.node (.node .leaf 74880 75075 .leaf) 77712 77808 .leaf)) 77824 78894 (.node (.node (.node .leaf 82944 83526 .leaf) 92160 92728 .leaf) 92736 92766 (.node (.node .leaf 92768 92777 .leaf) 92784 92862 .leaf))) 92864 92873 (.node (.node (.node (.node .leaf 92880 92909 .leaf) 92928 92975 .leaf) 92992 92995 (.node (.node .leaf 93008 93017 .leaf) 93019 93025 .leaf)) 93027 93047 (.node (.node (.node .leaf 93053 93071 .leaf) 93760 93846 .leaf) 93952 94026 (.node .leaf 94032 94032 .leaf)))) 94099 94111 (.node (.node (.node (.node (.node .leaf 94176 94177 .leaf) 94179 94179 .leaf) 94208 100343 (.node (.node .leaf 100352 101589 .leaf) 101632 101640 .leaf)) 110576 110579 (.node (.node (.node .leaf 110581 110587 .leaf) 110589 110590 .leaf) 110592 110882 (.node (.node .leaf 110928 110930 .leaf) 110948 110951 .leaf))) 110960 111355 (.node (.node (.node (.node .leaf 113664 113770 .leaf) 113776 113788 .leaf) 113792 113800 (.node (.node .leaf 113808 113817 .leaf) 119520 119539 .leaf)) 119648 119672 (.node (.node (.node .leaf 119808 119892 .leaf) 119894 119964 .leaf) 119966 119967 (.node .leaf 119970 119970 .leaf)))))
def wordRanges_14 : RTree := (.node (.node (.node (.node (.node (.node .leaf 119977 119980 .leaf) 119982 119993 .leaf) 119995 119995 (.node (.node .leaf 119997 120003 .leaf) 120005 120069 .leaf)) 120071 120074 (.node (.node (.node .leaf 120077 120084 .leaf) 120086 120092 .leaf) 120094 120121 (.node (.node .leaf 120123 120126 .leaf) 120128 120132 .leaf))) 120134 120134 (.node (.node (.node (.node .leaf 120138 120144 .leaf) 120146 120485 .leaf) 120488 120512 (.node (.node .leaf 120514 120538 .leaf) 120540 120570 .leaf)) 120572 120596 (.node (.node (.node .leaf 120598 120628 .leaf) 120630 120654 .leaf) 120656 120686 (.node .leaf 120688 120712 .leaf)))) 120714 120744 (.node (.node (.node (.node (.node .leaf 120746 120770 .leaf) 120772 120779 .leaf) 120782 120831 (.node (.node .leaf 122624 122654 .leaf) 123136 123180 .leaf)) 123191 123197 (.node (.node (.node .leaf 123200 123209 .leaf) 123214 123214 .leaf) 123536 123565 (.node (.node .leaf 123584 123627 .leaf) 123632 123641 .leaf))) 124896 124902 (.node (.node (.node (.node .leaf 124904 124907 .leaf) 124909 124910 .leaf) 124912 124926 (.node (.node .leaf 124928 125124 .leaf) 125127 125135 .leaf)) 125184 125251 (.node (.node (.node .leaf 125259 125259 .leaf) 125264 125273 .leaf) 126065 126123 (.node .leaf 126125 126127 .leaf)))))
def wordRanges_15 : RTree := (.node (.node (.node (.node (.node (.node .leaf 126209 126253 .leaf) 126255 126269 .leaf) 126464 126467 (.node (.node .leaf 126469 126495 .leaf) 126497 126498 .leaf)) 126500 126500 (.node (.node (.node .leaf 126503 126503 .leaf) 126505 126514 .leaf) 126516 126519 (.node (.node .leaf 126521 126521 .leaf) 126523 126523 .leaf))) 126530 126530 (.node (.node (.node (.node .leaf 126535 126535 .leaf) 126537 126537 .leaf) 126539 126539 (.node (.node .leaf 126541 126543 .leaf) 126545 126546 .leaf)) 126548 126548 (.node (.node (.node .leaf 126551 126551 .leaf) 126553 126553 .leaf) 126555 126555 (.node .leaf 126557 126557 .leaf)))) 126559 126559 (.node (.node (.node (.node (.node .leaf 126561 126562 .leaf) 126564 126564 .leaf) 126567 126570 (.node (.node .leaf 126572 126578 .leaf) 126580 126583 .leaf)) 126585 126588 (.node (.node (.node .leaf 126590 126590 .leaf) 126592 126601 .leaf) 126603 126619 (.node .leaf 126625 126627 .leaf))) 126629 126633 (.node (.node (.node (.node .leaf 126635 126651 .leaf) 127232 127244 .leaf) 130032 130041 (.node (.node .leaf 131072 173791 .leaf) 173824 177976 .leaf)) 177984 178205 (.node (.node (.node .leaf 178208 183969 .leaf) 183984 191456 .leaf) 194560 195101 (.node .leaf 196608 201546 .leaf)))))
/-- code points matched by `re` `\w` on `str` (`str.isalnum()` or `_`) -/
def wordRanges : RTree := (.node (.node (.node (.node wordRanges_0 2036 2037 wordRanges_1) 2741 2745 (.node wordRanges_2 3293 3294 wordRanges_3)) 4206 4208 (.node (.node wordRanges_4 6279 6312 wordRanges_5) 8160 8172 (.node wordRanges_6 12344 12348 wordRanges_7))) 43494 43518 (.node (.node (.node wordRanges_8 65296 65305 wordRanges_9) 67463 67504 (.node wordRanges_10 69635 69687 wordRanges_11)) 71168 71215 (.node (.node wordRanges_12 73648 73648 wordRanges_13) 119973 119974 (.node wordRanges_14 126129 126132 wordRanges_15))))

def mnRanges_0 : RTree := (.node (.node (.node (.node (.node (.node .leaf 768 879 .leaf) 1155 1159 .leaf) 1425 1469 (.node (.node .leaf 1471 1471 .leaf) 1473 1474 .leaf)) 1476 1477 (.node (.node (.node .leaf 1479 1479 .leaf) 1552 1562 .leaf) 1611 1631 (.node .leaf 1648 1648 .leaf))) 1750 1756 (.node (.node (.node (.node .leaf 1759 1764 .leaf) 1767 1768 .leaf) 1770 1773 (.node (.node .leaf 1809 1809 .leaf) 1840 1866 .leaf)) 1958 1968 (.node (.node (.node .leaf 2027 2035 .leaf) 2045 2045 .leaf) 2070 2073 (.node .leaf 2075 2083 .leaf)))) 2085 2087 (.node (.node (.node (.node (.node .leaf 2089 2093 .leaf) 2137 2139 .leaf) 2200 2207 (.node (.node .leaf 2250 2273 .leaf) 2275 2306 .leaf)) 2362 2362 (.node (.node (.node .leaf 2364 2364 .leaf) 2369 2376 .leaf) 2381 2381 (.node .leaf 2385 2391 .leaf))) 2402 2403 (.node (.node (.node (.node .leaf 2433 2433 .leaf) 2492 2492 .leaf) 2497 2500 (.node .leaf 2509 2509 .leaf)) 2530 2531 (.node (.node (.node .leaf 2558 2558 .leaf) 2561 2562 .leaf) 2620 2620 (.node .leaf 2625 2626 .leaf)))))
def mnRanges_1 : RTree := (.node (.node (.node (.node (.node (.node .leaf 2635 2637 .leaf) 2641 2641 .leaf) 2672 2673 (.node (.node .leaf 2677 2677 .leaf) 2689 2690 .leaf)) 2748 2748 (.node (.node (.node .leaf 2753 2757 .leaf) 2759 2760 .leaf) 2765 2765 (.node .leaf 2786 2787 .leaf))) 2810 2815 (.node (.node (.node (.node .leaf 2817 2817 .leaf) 2876 2876 .leaf) 2879 2879 (.node .leaf 2881 2884 .leaf)) 2893 2893 (.node (.node (.node .leaf 2901 2902 .leaf) 2914 2915 .leaf) 2946 2946 (.node .leaf 3008 3008 .leaf)))) 3021 3021 (.node (.node (.node (.node (.node .leaf 3072 3072 .leaf) 3076 3076 .leaf) 3132 3132 (.node (.node .leaf 3134 3136 .leaf) 3142 3144 .leaf)) 3146 3149 (.node (.node (.node .leaf 3157 3158 .leaf) 3170 3171 .leaf) 3201 3201 (.node .leaf 3260 3260 .leaf))) 3263 3263 (.node (.node (.node (.node .leaf 3270 3270 .leaf) 3276 3277 .leaf) 3298 3299 (.node .leaf 3328 3329 .leaf)) 3387 3388 (.node (.node (.node .leaf 3393 3396 .leaf) 3405 3405 .leaf) 3426 3427 (.node .leaf 3457 3457 .leaf)))))
def mnRanges_2 : RTree := (.node (.node (.node (.node (.node (.node .leaf 3538 3540 .leaf) 3542 3542 .leaf) 3633 3633 (.node (.node .leaf 3636 3642 .leaf) 3655 3662 .leaf)) 3761 3761 (.node (.node (.node .leaf 3764 3772 .leaf) 3784 3789 .leaf) 3864 3865 (.node .leaf 3893 3893 .leaf))) 3895 3895 (.node (.node (.node (.node .leaf 3897 3897 .leaf) 3953 3966 .leaf) 3968 3972 (.node .leaf 3974 3975 .leaf)) 3981 3991 (.node (.node (.node .leaf 3993 4028 .leaf) 4038 4038 .leaf) 4141 4144 (.node .leaf 4146 4151 .leaf)))) 4153 4154 (.node (.node (.node (.node (.node .leaf 4157 4158 .leaf) 4184 4185 .leaf) 4190 4192 (.node (.node .leaf 4209 4212 .leaf) 4226 4226 .leaf)) 4229 4230 (.node (.node (.node .leaf 4237 4237 .leaf) 4253 4253 .leaf) 4957 4959 (.node .leaf 5906 5908 .leaf))) 5938 5939 (.node (.node (.node (.node .leaf 5970 5971 .leaf) 6002 6003 .leaf) 6068 6069 (.node .leaf 6071 6077 .leaf)) 6086 6086 (.node (.node (.node .leaf 6089 6099 .leaf) 6109 6109 .leaf) 6155 6157 (.node .leaf 6159 6159 .leaf)))))
def mnRanges_3 : RTree := (.node (.node (.node (.node (.node (.node .leaf 6313 6313 .leaf) 6432 6434 .leaf) 6439 6440 (.node (.node .leaf 6450 6450 .leaf) 6457 6459 .leaf)) 6679 6680 (.node (.node (.node .leaf 6683 6683 .leaf) 6742 6742 .leaf) 6744 6750 (.node .leaf 6752 6752 .leaf))) 6754 6754 (.node (.node (.node (.node .leaf 6757 6764 .leaf) 6771 6780 .leaf) 6783 6783 (.node .leaf 6832 6845 .leaf)) 6847 6862 (.node (.node (.node .leaf 6912 6915 .leaf) 6964 6964 .leaf) 6966 6970 (.node .leaf 6972 6972 .leaf)))) 6978 6978 (.node (.node (.node (.node (.node .leaf 7019 7027 .leaf) 7040 7041 .leaf) 7074 7077 (.node (.node .leaf 7080 7081 .leaf) 7083 7085 .leaf)) 7142 7142 (.node (.node (.node .leaf 7144 7145 .leaf) 7149 7149 .leaf) 7151 7153 (.node .leaf 7212 7219 .leaf))) 7222 7223 (.node (.node (.node (.node .leaf 7376 7378 .leaf) 7380 7392 .leaf) 7394 7400 (.node .leaf 7405 7405 .leaf)) 7412 7412 (.node (.node (.node .leaf 7416 7417 .leaf) 7616 7679 .leaf) 8400 8412 (.node .leaf 8417 8417 .leaf)))))
def mnRanges_4 : RTree := (.node (.node (.node (.node (.node (.node .leaf 11503 11505 .leaf) 11647 11647 .leaf) 11744 11775 (.node (.node .leaf 12330 12333 .leaf) 12441 12442 .leaf)) 42607 42607 (.node (.node (.node .leaf 42612 42621 .leaf) 42654 42655 .leaf) 42736 42737 (.node .leaf 43010 43010 .leaf))) 43014 43014 (.node (.node (.node (.node .leaf 43019 43019 .leaf) 43045 43046 .leaf) 43052 43052 (.node .leaf 43204 43205 .leaf)) 43232 43249 (.node (.node (.node .leaf 43263 43263 .leaf) 43302 43309 .leaf) 43335 43345 (.node .leaf 43392 43394 .leaf)))) 43443 43443 (.node (.node (.node (.node (.node .leaf 43446 43449 .leaf) 43452 43453 .leaf) 43493 43493 (.node (.node .leaf 43561 43566 .leaf) 43569 43570 .leaf)) 43573 43574 (.node (.node (.node .leaf 43587 43587 .leaf) 43596 43596 .leaf) 43644 43644 (.node .leaf 43696 43696 .leaf))) 43698 43700 (.node (.node (.node (.node .leaf 43703 43704 .leaf) 43710 43711 .leaf) 43713 43713 (.node .leaf 43756 43757 .leaf)) 43766 43766 (.node (.node (.node .leaf 44005 44005 .leaf) 44008 44008 .leaf) 44013 44013 (.node .leaf 64286 64286 .leaf)))))
def mnRanges_5 : RTree := (.node (.node (.node (.node (.node (.node .leaf 65056 65071 .leaf) 66045 66045 .leaf) 66272 66272 (.node (.node .leaf 66422 66426 .leaf) 68097 68099 .leaf)) 68101 68102 (.node (.node (.node .leaf 68108 68111 .leaf) 68152 68154 .leaf) 68159 68159 (.node .leaf 68325 68326 .leaf))) 68900 68903 (.node (.node (.node (.node .leaf 69291 69292 .leaf) 69446 69456 .leaf) 69506 69509 (.node .leaf 69633 69633 .leaf)) 69688 69702 (.node (.node (.node .leaf 69744 69744 .leaf) 69747 69748 .leaf) 69759 69761 (.node .leaf 69811 69814 .leaf)))) 69817 69818 (.node (.node (.node (.node (.node .leaf 69826 69826 .leaf) 69888 69890 .leaf) 69927 69931 (.node (.node .leaf 69933 69940 .leaf) 70003 70003 .leaf)) 70016 70017 (.node (.node (.node .leaf 70070 70078 .leaf) 70089 70092 .leaf) 70095 70095 (.node .leaf 70191 70193 .leaf))) 70196 70196 (.node (.node (.node (.node .leaf 70198 70199 .leaf) 70206 70206 .leaf) 70367 70367 (.node .leaf 70371 70378 .leaf)) 70400 70401 (.node (.node (.node .leaf 70459 70460 .leaf) 70464 70464 .leaf) 70502 70508 (.node .leaf 70512 70516 .leaf)))))
def mnRanges_6 : RTree := (.node (.node (.node (.node (.node (.node .leaf 70722 70724 .leaf) 70726 70726 .leaf) 70750 70750 (.node (.node .leaf 70835 70840 .leaf) 70842 70842 .leaf)) 70847 70848 (.node (.node (.node .leaf 70850 70851 .leaf) 71090 71093 .leaf) 71100 71101 (.node .leaf 71103 71104 .leaf))) 71132 71133 (.node (.node (.node (.node .leaf 71219 71226 .leaf) 71229 71229 .leaf) 71231 71232 (.node .leaf 71339 71339 .leaf)) 71341 71341 (.node (.node (.node .leaf 71344 71349 .leaf) 71351 71351 .leaf) 71453 71455 (.node .leaf 71458 71461 .leaf)))) 71463 71467 (.node (.node (.node (.node (.node .leaf 71727 71735 .leaf) 71737 71738 .leaf) 71995 71996 (.node (.node .leaf 71998 71998 .leaf) 72003 72003 .leaf)) 72148 72151 (.node (.node (.node .leaf 72154 72155 .leaf) 72160 72160 .leaf) 72193 72202 (.node .leaf 72243 72248 .leaf))) 72251 72254 (.node (.node (.node (.node .leaf 72263 72263 .leaf) 72273 72278 .leaf) 72281 72283 (.node .leaf 72330 72342 .leaf)) 72344 72345 (.node (.node (.node .leaf 72752 72758 .leaf) 72760 72765 .leaf) 72767 72767 (.node .leaf 72850 72871 .leaf)))))
def mnRanges_7 : RTree := (.node (.node (.node (.node (.node (.node .leaf 72882 72883 .leaf) 72885 72886 .leaf) 73009 73014 (.node (.node .leaf 73018 73018 .leaf) 73020 73021 .leaf)) 73023 73029 (.node (.node (.node .leaf 73031 73031 .leaf) 73104 73105 .leaf) 73109 73109 (.node .leaf 73111 73111 .leaf))) 73459 73460 (.node (.node (.node (.node .leaf 92912 92916 .leaf) 92976 92982 .leaf) 94031 94031 (.node .leaf 94095 94098 .leaf)) 94180 94180 (.node (.node (.node .leaf 113821 113822 .leaf) 118528 118573 .leaf) 118576 118598 (.node .leaf 119143 119145 .leaf)))) 119163 119170 (.node (.node (.node (.node (.node .leaf 119173 119179 .leaf) 119210 119213 .leaf) 119362 119364 (.node (.node .leaf 121344 121398 .leaf) 121403 121452 .leaf)) 121461 121461 (.node (.node (.node .leaf 121476 121476 .leaf) 121499 121503 .leaf) 121505 121519 (.node .leaf 122880 122886 .leaf))) 122888 122904 (.node (.node (.node (.node .leaf 122907 122913 .leaf) 122915 122916 .leaf) 122918 122922 (.node .leaf 123184 123190 .leaf)) 123566 123566 (.node (.node (.node .leaf 123628 123631 .leaf) 125136 125142 .leaf) 125252 125258 (.node .leaf 917760 917999 .leaf)))))
/-- code points with `unicodedata.category(c) == "Mn"` -/
def mnRanges : RTree := (.node (.node (.node mnRanges_0 2631 2632 mnRanges_1) 3530 3530 (.node mnRanges_2 6277 6278 mnRanges_3)) 8421 8432 (.node (.node mnRanges_4 65024 65039 mnRanges_5) 70712 70719 (.node mnRanges_6 72874 72880 mnRanges_7)))

def numericRanges_0 : RTree := (.node (.node (.node (.node (.node (.node .leaf 48 57 .leaf) 178 179 (.node .leaf 185 185 .leaf)) 188 190 (.node (.node .leaf 1632 1641 .leaf) 1776 1785 .leaf)) 1984 1993 (.node (.node (.node .leaf 2406 2415 .leaf) 2534 2543 .leaf) 2548 2553 (.node (.node .leaf 2662 2671 .leaf) 2790 2799 .leaf))) 2918 2927 (.node (.node (.node (.node .leaf 2930 2935 .leaf) 3046 3058 (.node .leaf 3174 3183 .leaf)) 3192 3198 (.node (.node .leaf 3302 3311 .leaf) 3416 3422 .leaf)) 3430 3448 (.node (.node (.node .leaf 3558 3567 .leaf) 3664 3673 .leaf) 3792 3801 (.node (.node .leaf 3872 3891 .leaf) 4160 4169 .leaf)))) 4240 4249 (.node (.node (.node (.node (.node .leaf 4969 4988 .leaf) 5870 5872 (.node .leaf 6112 6121 .leaf)) 6128 6137 (.node (.node .leaf 6160 6169 .leaf) 6470 6479 .leaf)) 6608 6618 (.node (.node (.node .leaf 6784 6793 .leaf) 6800 6809 .leaf) 6992 7001 (.node (.node .leaf 7088 7097 .leaf) 7232 7241 .leaf))) 7248 7257 (.node (.node (.node (.node .leaf 8304 8304 .leaf) 8308 8313 (.node .leaf 8320 8329 .leaf)) 8528 8578 (.node (.node .leaf 8581 8585 .leaf) 9312 9371 .leaf)) 9450 9471 (.node (.node (.node .leaf 10102 10131 .leaf) 11517 11517 .leaf) 12295 12295 (.node (.node .leaf 12321 12329 .leaf) 12344 12346 .leaf)))))
def numericRanges_1 : RTree := (.node (.node (.node (.node (.node (.node .leaf 12832 12841 .leaf) 12872 12879 (.node .leaf 12881 12895 .leaf)) 12928 12937 (.node (.node .leaf 12977 12991 .leaf) 13317 13317 .leaf)) 13443 13443 (.node (.node (.node .leaf 14378 14378 .leaf) 15181 15181 .leaf) 19968 19968 (.node (.node .leaf 19971 19971 .leaf) 19975 19975 .leaf))) 19977 19977 (.node (.node (.node (.node .leaf 20061 20061 .leaf) 20108 20108 (.node .leaf 20116 20116 .leaf)) 20118 20118 (.node (.node .leaf 20159 20160 .leaf) 20191 20191 .leaf)) 20200 20200 (.node (.node (.node .leaf 20237 20237 .leaf) 20336 20336 .leaf) 20740 20740 (.node (.node .leaf 20806 20806 .leaf) 20841 20841 .leaf)))) 20843 20843 (.node (.node (.node (.node (.node .leaf 20845 20845 .leaf) 21313 21313 (.node .leaf 21315 21317 .leaf)) 21324 21324 (.node (.node .leaf 21441 21444 .leaf) 22235 22235 .leaf)) 22769 22769 (.node (.node (.node .leaf 22777 22777 .leaf) 24186 24186 .leaf) 24318 24319 (.node (.node .leaf 24332 24334 .leaf) 24336 24336 .leaf))) 25342 25342 (.node (.node (.node (.node .leaf 25420 25420 .leaf) 26578 26578 (.node .leaf 28422 28422 .leaf)) 29590 29590 (.node (.node .leaf 30334 30334 .leaf) 32902 32902 .leaf)) 33836 33836 (.node (.node (.node .leaf 36014 36014 .leaf) 36019 36019 .leaf) 36144 36144 (.node (.node .leaf 38433 38433 .leaf) 38470 38470 .leaf)))))
def numericRanges_2 : RTree := (.node (.node (.node (.node (.node (.node .leaf 38520 38520 .leaf) 38646 38646 (.node .leaf 42528 42537 .leaf)) 42726 42735 (.node (.node .leaf 43056 43061 .leaf) 43216 43225 .leaf)) 43264 43273 (.node (.node (.node .leaf 43472 43481 .leaf) 43504 43513 .leaf) 43600 43609 (.node (.node .leaf 44016 44025 .leaf) 63851 63851 .leaf))) 63859 63859 (.node (.node (.node (.node .leaf 63864 63864 .leaf) 63922 63922 (.node .leaf 63953 63953 .leaf)) 63955 63955 (.node (.node .leaf 63997 63997 .leaf) 65296 65305 .leaf)) 65799 65843 (.node (.node (.node .leaf 65856 65912 .leaf) 65930 65931 .leaf) 66273 66299 (.node (.node .leaf 66336 66339 .leaf) 66369 66369 .leaf)))) 66378 66378 (.node (.node (.node (.node (.node .leaf 66513 66517 .leaf) 66720 66729 (.node .leaf 67672 67679 .leaf)) 67705 67711 (.node (.node .leaf 67751 67759 .leaf) 67835 67839 .leaf)) 67862 67867 (.node (.node (.node .leaf 68028 68029 .leaf) 68032 68047 .leaf) 68050 68095 (.node (.node .leaf 68160 68168 .leaf) 68221 68222 .leaf))) 68253 68255 (.node (.node (.node (.node .leaf 68331 68335 .leaf) 68440 68447 (.node .leaf 68472 68479 .leaf)) 68521 68527 (.node (.node .leaf 68858 68863 .leaf) 68912 68921 .leaf)) 69216 69246 (.node (.node (.node .leaf 69405 69414 .leaf) 69457 69460 .leaf) 69573 69579 (.node (.node .leaf 69714 69743 .leaf) 69872 69881 .leaf)))))
def numericRanges_3 : RTree := (.node (.node (.node (.node (.node (.node .leaf 70096 70105 .leaf) 70113 70132 (.node .leaf 70384 70393 .leaf)) 70736 70745 (.node (.node .leaf 70864 70873 .leaf) 71248 71257 .leaf)) 71360 71369 (.node (.node (.node .leaf 71472 71483 .leaf) 71904 71922 .leaf) 72016 72025 (.node (.node .leaf 72784 72812 .leaf) 73040 73049 .leaf))) 73120 73129 (.node (.node (.node (.node .leaf 73664 73684 .leaf) 74752 74862 (.node .leaf 92768 92777 .leaf)) 92864 92873 (.node (.node .leaf 93008 93017 .leaf) 93019 93025 .leaf)) 93824 93846 (.node (.node (.node .leaf 119520 119539 .leaf) 119648 119672 .leaf) 120782 120831 (.node (.node .leaf 123200 123209 .leaf) 123632 123641 .leaf)))) 125127 125135 (.node (.node (.node (.node (.node .leaf 125264 125273 .leaf) 126065 126123 (.node .leaf 126125 126127 .leaf)) 126129 126132 (.node (.node .leaf 126209 126253 .leaf) 126255 126269 .leaf)) 127232 127244 (.node (.node (.node .leaf 130032 130041 .leaf) 131073 131073 .leaf) 131172 131172 (.node (.node .leaf 131298 131298 .leaf) 131361 131361 .leaf))) 133418 133418 (.node (.node (.node (.node .leaf 133507 133507 .leaf) 133516 133516 .leaf) 133532 133532 (.node (.node .leaf 133866 133866 .leaf) 133885 133885 .leaf)) 133913 133913 (.node (.node (.node .leaf 140176 140176 .leaf) 141720 141720 .leaf) 146203 146203 (.node (.node .leaf 156269 156269 .leaf) 194704 194704 .leaf)))))
/-- code points with `str.isnumeric()` -/
def numericRanges : RTree := (.node (.node numericRanges_0 12690 12693 numericRanges_1) 38476 38476 (.node numericRanges_2 69942 69951 numericRanges_3))

def decimalRanges_0 : RTree := (.node (.node (.node (.node (.node .leaf 48 57 .leaf) 1632 1641 (.node .leaf 1776 1785 .leaf)) 1984 1993 (.node (.node .leaf 2406 2415 .leaf) 2534 2543 (.node .leaf 2662 2671 .leaf))) 2790 2799 (.node (.node (.node .leaf 2918 2927 .leaf) 3046 3055 (.node .leaf 3174 3183 .leaf)) 3302 3311 (.node (.node .leaf 3430 3439 .leaf) 3558 3567 (.node .leaf 3664 3673 .leaf)))) 3792 3801 (.node (.node (.node (.node .leaf 3872 3881 .leaf) 4160 4169 (.node .leaf 4240 4249 .leaf)) 6112 6121 (.node (.node .leaf 6160 6169 .leaf) 6470 6479 (.node .leaf 6608 6617 .leaf))) 6784 6793 (.node (.node (.node .leaf 6800 6809 .leaf) 6992 7001 (.node .leaf 7088 7097 .leaf)) 7232 7241 (.node (.node .leaf 7248 7257 .leaf) 42528 42537 (.node .leaf 43216 43225 .leaf)))))
def decimalRanges_1 : RTree := (.node (.node (.node (.node (.node .leaf 43472 43481 .leaf) 43504 43513 (.node .leaf 43600 43609 .leaf)) 44016 44025 (.node (.node .leaf 65296 65305 .leaf) 66720 66729 (.node .leaf 68912 68921 .leaf))) 69734 69743 (.node (.node (.node .leaf 69872 69881 .leaf) 69942 69951 (.node .leaf 70096 70105 .leaf)) 70384 70393 (.node (.node .leaf 70736 70745 .leaf) 70864 70873 (.node .leaf 71248 71257 .leaf)))) 71360 71369 (.node (.node (.node (.node .leaf 71472 71481 .leaf) 71904 71913 (.node .leaf 72016 72025 .leaf)) 72784 72793 (.node (.node .leaf 73040 73049 .leaf) 73120 73129 (.node .leaf 92768 92777 .leaf))) 92864 92873 (.node (.node (.node .leaf 93008 93017 .leaf) 120782 120831 (.node .leaf 123200 123209 .leaf)) 123632 123641 (.node (.node .leaf 125264 125273 .leaf) 130032 130041 .leaf))))
/-- maximal runs of code points with `str.isdecimal()`; every run starts at a digit zero, the value of `c` is `(c - lo) % 10` -/
def decimalRanges : RTree := (.node decimalRanges_0 43264 43273 decimalRanges_1)

def casedRanges_0 : RTree := (.node (.node (.node (.node (.node (.node .leaf 65 90 .leaf) 97 122 .leaf) 170 170 (.node .leaf 181 181 .leaf)) 186 186 (.node (.node (.node .leaf 192 214 .leaf) 216 246 .leaf) 248 442 (.node .leaf 444 447 .leaf))) 452 659 (.node (.node (.node (.node .leaf 661 687 .leaf) 880 883 .leaf) 886 887 (.node .leaf 891 893 .leaf)) 895 895 (.node (.node .leaf 902 902 .leaf) 904 906 (.node .leaf 908 908 .leaf)))) 910 929 (.node (.node (.node (.node (.node .leaf 931 1013 .leaf) 1015 1153 .leaf) 1162 1327 (.node .leaf 1329 1366 .leaf)) 1376 1416 (.node (.node (.node .leaf 4256 4293 .leaf) 4295 4295 .leaf) 4301 4301 (.node .leaf 4304 4346 .leaf))) 4349 4351 (.node (.node (.node (.node .leaf 5024 5109 .leaf) 5112 5117 .leaf) 7296 7304 (.node .leaf 7312 7354 .leaf)) 7357 7359 (.node (.node .leaf 7424 7467 .leaf) 7531 7543 (.node .leaf 7545 7578 .leaf)))))
def casedRanges_1 : RTree := (.node (.node (.node (.node (.node (.node .leaf 7960 7965 .leaf) 7968 8005 .leaf) 8008 8013 (.node .leaf 8016 8023 .leaf)) 8025 8025 (.node (.node (.node .leaf 8027 8027 .leaf) 8029 8029 .leaf) 8031 8061 (.node .leaf 8064 8116 .leaf))) 8118 8124 (.node (.node (.node (.node .leaf 8126 8126 .leaf) 8130 8132 .leaf) 8134 8140 (.node .leaf 8144 8147 .leaf)) 8150 8155 (.node (.node .leaf 8160 8172 .leaf) 8178 8180 (.node .leaf 8182 8188 .leaf)))) 8450 8450 (.node (.node (.node (.node (.node .leaf 8455 8455 .leaf) 8458 8467 .leaf) 8469 8469 (.node .leaf 8473 8477 .leaf)) 8484 8484 (.node (.node .leaf 8486 8486 .leaf) 8488 8488 (.node .leaf 8490 8493 .leaf))) 8495 8500 (.node (.node (.node (.node .leaf 8505 8505 .leaf) 8508 8511 .leaf) 8517 8521 (.node .leaf 8526 8526 .leaf)) 8544 8575 (.node (.node .leaf 8579 8580 .leaf) 9398 9449 (.node .leaf 11264 11387 .leaf)))))
def casedRanges_2 : RTree := (.node (.node (.node (.node (.node (.node .leaf 11499 11502 .leaf) 11506 11507 .leaf) 11520 11557 (.node .leaf 11559 11559 .leaf)) 11565 11565 (.node (.node (.node .leaf 42560 42605 .leaf) 42624 42651 .leaf) 42786 42863 (.node .leaf 42865 42887 .leaf))) 42891 42894 (.node (.node (.node (.node .leaf 42896 42954 .leaf) 42960 42961 .leaf) 42963 42963 (.node .leaf 42965 42969 .leaf)) 42997 42998 (.node (.node .leaf 43002 43002 .leaf) 43824 43866 (.node .leaf 43872 43880 .leaf)))) 43888 43967 (.node (.node (.node (.node (.node .leaf 64256 64262 .leaf) 64275 64279 .leaf) 65313 65338 (.node .leaf 65345 65370 .leaf)) 66560 66639 (.node (.node (.node .leaf 66736 66771 .leaf) 66776 66811 .leaf) 66928 66938 (.node .leaf 66940 66954 .leaf))) 66956 66962 (.node (.node (.node (.node .leaf 66964 66965 .leaf) 66967 66977 .leaf) 66979 66993 (.node .leaf 66995 67001 .leaf)) 67003 67004 (.node (.node .leaf 68736 68786 .leaf) 68800 68850 (.node .leaf 71840 71903 .leaf)))))
def casedRanges_3 : RTree := (.node (.node (.node (.node (.node (.node .leaf 119808 119892 .leaf) 119894 119964 .leaf) 119966 119967 (.node .leaf 119970 119970 .leaf)) 119973 119974 (.node (.node (.node .leaf 119977 119980 .leaf) 119982 119993 .leaf) 119995 119995 (.node .leaf 119997 120003 .leaf))) 120005 120069 (.node (.node (.node (.node .leaf 120071 120074 .leaf) 120077 120084 .leaf) 120086 120092 (.node .leaf 120094 120121 .leaf)) 120123 120126 (.node (.node .leaf 120128 120132 .leaf) 120134 120134 (.node .leaf 120138 120144 .leaf)))) 120146 120485 (.node (.node (.node (.node (.node .leaf 120488 120512 .leaf) 120514 120538 .leaf) 120540 120570 (.node .leaf 120572 120596 .leaf)) 120598 120628 (.node (.node .leaf 120630 120654 .leaf) 120656 120686 (.node .leaf 120688 120712 .leaf))) 120714 120744 (.node (.node (.node (.node .leaf 120746 120770 .leaf) 120772 120779 .leaf) 122624 122633 (.node .leaf 122635 122654 .leaf)) 125184 125251 (.node (.node .leaf 127280 127305 .leaf) 127312 127337 (.node .leaf 127344 127369 .leaf)))))
/-- code points that are Cased and not Case_Ignorable (as `str.lower` sees them in the final-sigma rule) -/
def casedRanges : RTree := (.node (.node casedRanges_0 7680 7957 casedRanges_1) 11390 11492 (.node casedRanges_2 93760 93823 casedRanges_3))

def caseIgnorableRanges_0 : RTree := (.node (.node (.node (.node (.node (.node .leaf 39 39 .leaf) 46 46 (.node .leaf 58 58 .leaf)) 94 94 (.node (.node .leaf 96 96 .leaf) 168 168 .leaf)) 173 173 (.node (.node (.node .leaf 175 175 .leaf) 180 180 (.node .leaf 183 184 .leaf)) 688 879 (.node (.node .leaf 884 885 .leaf) 890 890 .leaf))) 900 901 (.node (.node (.node (.node .leaf 903 903 .leaf) 1155 1161 (.node .leaf 1369 1369 .leaf)) 1375 1375 (.node (.node .leaf 1425 1469 .leaf) 1471 1471 .leaf)) 1473 1474 (.node (.node (.node .leaf 1476 1477 .leaf) 1479 1479 .leaf) 1524 1524 (.node (.node .leaf 1536 1541 .leaf) 1552 1562 .leaf)))) 1564 1564 (.node (.node (.node (.node (.node .leaf 1600 1600 .leaf) 1611 1631 (.node .leaf 1648 1648 .leaf)) 1750 1757 (.node (.node .leaf 1759 1768 .leaf) 1770 1773 .leaf)) 1807 1807 (.node (.node (.node .leaf 1809 1809 .leaf) 1840 1866 (.node .leaf 1958 1968 .leaf)) 2027 2037 (.node (.node .leaf 2042 2042 .leaf) 2045 2045 .leaf))) 2070 2093 (.node (.node (.node (.node .leaf 2137 2139 .leaf) 2184 2184 (.node .leaf 2192 2193 .leaf)) 2200 2207 (.node (.node .leaf 2249 2306 .leaf) 2362 2362 .leaf)) 2364 2364 (.node (.node (.node .leaf 2369 2376 .leaf) 2381 2381 .leaf) 2385 2391 (.node (.node .leaf 2402 2403 .leaf) 2417 2417 .leaf)))))
def caseIgnorableRanges_1 : RTree := (.node (.node (.node (.node (.node (.node .leaf 2492 2492 .leaf) 2497 2500 (.node .leaf 2509 2509 .leaf)) 2530 2531 (.node (.node .leaf 2558 2558 .leaf) 2561 2562 .leaf)) 2620 2620 (.node (.node (.node .leaf 2625 2626 .leaf) 2631 2632 (.node .leaf 2635 2637 .leaf)) 2641 2641 (.node (.node .leaf 2672 2673 .leaf) 2677 2677 .leaf))) 2689 2690 (.node (.node (.node (.node .leaf 2748 2748 .leaf) 2753 2757 (.node .leaf 2759 2760 .leaf)) 2765 2765 (.node (.node .leaf 2786 2787 .leaf) 2810 2815 .leaf)) 2817 2817 (.node (.node (.node .leaf 2876 2876 .leaf) 2879 2879 .leaf) 2881 2884 (.node (.node .leaf 2893 2893 .leaf) 2901 2902 .leaf)))) 2914 2915 (.node (.node (.node (.node (.node .leaf 2946 2946 .leaf) 3008 3008 (.node .leaf 3021 3021 .leaf)) 3072 3072 (.node (.node .leaf 3076 3076 .leaf) 3132 3132 .leaf)) 3134 3136 (.node (.node (.node .leaf 3142 3144 .leaf) 3146 3149 .leaf) 3157 3158 (.node (.node .leaf 3170 3171 .leaf) 3201 3201 .leaf))) 3260 3260 (.node (.node (.node (.node .leaf 3263 3263 .leaf) 3270 3270 (.node .leaf 3276 3277 .leaf)) 3298 3299 (.node (.node .leaf 3328 3329 .leaf) 3387 3388 .leaf)) 3393 3396 (.node (.node (.node .leaf 3405 3405 .leaf) 3426 3427 .leaf) 3457 3457 (.node (.node .leaf 3530 3530 .leaf) 3538 3540 .leaf)))))
def caseIgnorableRanges_2 : RTree := (.node (.node (.node (.node (.node (.node .leaf 3633 3633 .leaf) 3636 3642 (.node .leaf 3654 3662 .leaf)) 3761 3761 (.node (.node .leaf 3764 3772 .leaf) 3782 3782 .leaf)) 3784 3789 (.node (.node (.node .leaf 3864 3865 .leaf) 3893 3893 (.node .leaf 3895 3895 .leaf)) 3897 3897 (.node (.node .leaf 3953 3966 .leaf) 3968 3972 .leaf))) 3974 3975 (.node (.node (.node (.node .leaf 3981 3991 .leaf) 3993 4028 (.node .leaf 4038 4038 .leaf)) 4141 4144 (.node (.node .leaf 4146 4151 .leaf) 4153 4154 .leaf)) 4157 4158 (.node (.node (.node .leaf 4184 4185 .leaf) 4190 4192 .leaf) 4209 4212 (.node (.node .leaf 4226 4226 .leaf) 4229 4230 .leaf)))) 4237 4237 (.node (.node (.node (.node (.node .leaf 4253 4253 .leaf) 4348 4348 (.node .leaf 4957 4959 .leaf)) 5906 5908 (.node (.node .leaf 5938 5939 .leaf) 5970 5971 .leaf)) 6002 6003 (.node (.node (.node .leaf 6068 6069 .leaf) 6071 6077 (.node .leaf 6086 6086 .leaf)) 6089 6099 (.node (.node .leaf 6103 6103 .leaf) 6109 6109 .leaf))) 6155 6159 (.node (.node (.node (.node .leaf 6211 6211 .leaf) 6277 6278 (.node .leaf 6313 6313 .leaf)) 6432 6434 (.node (.node .leaf 6439 6440 .leaf) 6450 6450 .leaf)) 6457 6459 (.node (.node (.node .leaf 6679 6680 .leaf) 6683 6683 .leaf) 6742 6742 (.node (.node .leaf 6744 6750 .leaf) 6752 6752 .leaf)))))
def caseIgnorableRanges_3 : RTree := (.node (.node (.node (.node (.node (.node .leaf 6757 6764 .leaf) 6771 6780 (.node .leaf 6783 6783 .leaf)) 6823 6823 (.node (.node .leaf 6832 6862 .leaf) 6912 6915 .leaf)) 6964 6964 (.node (.node (.node .leaf 6966 6970 .leaf) 6972 6972 (.node .leaf 6978 6978 .leaf)) 7019 7027 (.node (.node .leaf 7040 7041 .leaf) 7074 7077 .leaf))) 7080 7081 (.node (.node (.node (.node .leaf 7083 7085 .leaf) 7142 7142 (.node .leaf 7144 7145 .leaf)) 7149 7149 (.node (.node .leaf 7151 7153 .leaf) 7212 7219 .leaf)) 7222 7223 (.node (.node (.node .leaf 7288 7293 .leaf) 7376 7378 .leaf) 7380 7392 (.node (.node .leaf 7394 7400 .leaf) 7405 7405 .leaf)))) 7412 7412 (.node (.node (.node (.node (.node .leaf 7416 7417 .leaf) 7468 7530 (.node .leaf 7544 7544 .leaf)) 7579 7679 (.node (.node .leaf 8125 8125 .leaf) 8127 8129 .leaf)) 8141 8143 (.node (.node (.node .leaf 8157 8159 .leaf) 8173 8175 .leaf) 8189 8190 (.node (.node .leaf 8203 8207 .leaf) 8216 8217 .leaf))) 8228 8228 (.node (.node (.node (.node .leaf 8231 8231 .leaf) 8234 8238 (.node .leaf 8288 8292 .leaf)) 8294 8303 (.node (.node .leaf 8305 8305 .leaf) 8319 8319 .leaf)) 8336 8348 (.node (.node (.node .leaf 8400 8432 .leaf) 11388 11389 .leaf) 11503 11505 (.node (.node .leaf 11631 11631 .leaf) 11647 11647 .leaf)))))
def caseIgnorableRanges_4 : RTree := (.node (.node (.node (.node (.node (.node .leaf 11823 11823 .leaf) 12293 12293 (.node .leaf 12330 12333 .leaf)) 12337 12341 (.node (.node .leaf 12347 12347 .leaf) 12441 12446 .leaf)) 12540 12542 (.node (.node (.node .leaf 40981 40981 .leaf) 42232 42237 (.node .leaf 42508 42508 .leaf)) 42607 42610 (.node (.node .leaf 42612 42621 .leaf) 42623 42623 .leaf))) 42652 42655 (.node (.node (.node (.node .leaf 42736 42737 .leaf) 42752 42785 (.node .leaf 42864 42864 .leaf)) 42888 42890 (.node (.node .leaf 42994 42996 .leaf) 43000 43001 .leaf)) 43010 43010 (.node (.node (.node .leaf 43014 43014 .leaf) 43019 43019 .leaf) 43045 43046 (.node (.node .leaf 43052 43052 .leaf) 43204 43205 .leaf)))) 43232 43249 (.node (.node (.node (.node (.node .leaf 43263 43263 .leaf) 43302 43309 (.node .leaf 43335 43345 .leaf)) 43392 43394 (.node (.node .leaf 43443 43443 .leaf) 43446 43449 .leaf)) 43452 43453 (.node (.node (.node .leaf 43471 43471 .leaf) 43493 43494 (.node .leaf 43561 43566 .leaf)) 43569 43570 (.node (.node .leaf 43573 43574 .leaf) 43587 43587 .leaf))) 43596 43596 (.node (.node (.node (.node .leaf 43632 43632 .leaf) 43644 43644 (.node .leaf 43696 43696 .leaf)) 43698 43700 (.node (.node .leaf 43703 43704 .leaf) 43710 43711 .leaf)) 43713 43713 (.node (.node (.node .leaf 43741 43741 .leaf) 43756 43757 .leaf) 43763 43764 (.node (.node .leaf 43766 43766 .leaf) 43867 43871 .leaf)))))
def caseIgnorableRanges_5 : RTree := (.node (.node (.node (.node (.node (.node .leaf 44005 44005 .leaf) 44008 44008 (.node .leaf 44013 44013 .leaf)) 64286 64286 (.node (.node .leaf 64434 64450 .leaf) 65024 65039 .leaf)) 65043 65043 (.node (.node (.node .leaf 65056 65071 .leaf) 65106 65106 (.node .leaf 65109 65109 .leaf)) 65279 65279 (.node (.node .leaf 65287 65287 .leaf) 65294 65294 .leaf))) 65306 65306 (.node (.node (.node (.node .leaf 65342 65342 .leaf) 65344 65344 (.node .leaf 65392 65392 .leaf)) 65438 65439 (.node (.node .leaf 65507 65507 .leaf) 65529 65531 .leaf)) 66045 66045 (.node (.node (.node .leaf 66272 66272 .leaf) 66422 66426 .leaf) 67456 67461 (.node (.node .leaf 67463 67504 .leaf) 67506 67514 .leaf)))) 68097 68099 (.node (.node (.node (.node (.node .leaf 68101 68102 .leaf) 68108 68111 (.node .leaf 68152 68154 .leaf)) 68159 68159 (.node (.node .leaf 68325 68326 .leaf) 68900 68903 .leaf)) 69291 69292 (.node (.node (.node .leaf 69446 69456 .leaf) 69506 69509 .leaf) 69633 69633 (.node (.node .leaf 69688 69702 .leaf) 69744 69744 .leaf))) 69747 69748 (.node (.node (.node (.node .leaf 69759 69761 .leaf) 69811 69814 (.node .leaf 69817 69818 .leaf)) 69821 69821 (.node (.node .leaf 69826 69826 .leaf) 69837 69837 .leaf)) 69888 69890 (.node (.node (.node .leaf 69927 69931 .leaf) 69933 69940 .leaf) 70003 70003 (.node (.node .leaf 70016 70017 .leaf) 70070 70078 .leaf)))))
def caseIgnorableRanges_6 : RTree := (.node (.node (.node (.node (.node (.node .leaf 70095 70095 .leaf) 70191 70193 (.node .leaf 70196 70196 .leaf)) 70198 70199 (.node (.node .leaf 70206 70206 .leaf) 70367 70367 .leaf)) 70371 70378 (.node (.node (.node .leaf 70400 70401 .leaf) 70459 70460 (.node .leaf 70464 70464 .leaf)) 70502 70508 (.node (.node .leaf 70512 70516 .leaf) 70712 70719 .leaf))) 70722 70724 (.node (.node (.node (.node .leaf 70726 70726 .leaf) 70750 70750 (.node .leaf 70835 70840 .leaf)) 70842 70842 (.node (.node .leaf 70847 70848 .leaf) 70850 70851 .leaf)) 71090 71093 (.node (.node (.node .leaf 71100 71101 .leaf) 71103 71104 .leaf) 71132 71133 (.node (.node .leaf 71219 71226 .leaf) 71229 71229 .leaf)))) 71231 71232 (.node (.node (.node (.node (.node .leaf 71339 71339 .leaf) 71341 71341 (.node .leaf 71344 71349 .leaf)) 71351 71351 (.node (.node .leaf 71453 71455 .leaf) 71458 71461 .leaf)) 71463 71467 (.node (.node (.node .leaf 71727 71735 .leaf) 71737 71738 (.node .leaf 71995 71996 .leaf)) 71998 71998 (.node (.node .leaf 72003 72003 .leaf) 72148 72151 .leaf))) 72154 72155 (.node (.node (.node (.node .leaf 72160 72160 .leaf) 72193 72202 (.node .leaf 72243 72248 .leaf)) 72251 72254 (.node (.node .leaf 72263 72263 .leaf) 72273 72278 .leaf)) 72281 72283 (.node (.node (.node .leaf 72330 72342 .leaf) 72344 72345 .leaf) 72752 72758 (.node (.node .leaf 72760 72765 .leaf) 72767 72767 .leaf)))))
def caseIgnorableRanges_7 : RTree := (.node (.node (.node (.node (.node (.node .leaf 72874 72880 .leaf) 72882 72883 (.node .leaf 72885 72886 .leaf)) 73009 73014 (.node (.node .leaf 73018 73018 .leaf) 73020 73021 .leaf)) 73023 73029 (.node (.node (.node .leaf 73031 73031 .leaf) 73104 73105 (.node .leaf 73109 73109 .leaf)) 73111 73111 (.node (.node .leaf 73459 73460 .leaf) 78896 78904 .leaf))) 92912 92916 (.node (.node (.node (.node .leaf 92976 92982 .leaf) 92992 92995 (.node .leaf 94031 94031 .leaf)) 94095 94111 (.node (.node .leaf 94176 94177 .leaf) 94179 94180 .leaf)) 110576 110579 (.node (.node (.node .leaf 110581 110587 .leaf) 110589 110590 .leaf) 113821 113822 (.node (.node .leaf 113824 113827 .leaf) 118528 118573 .leaf)))) 118576 118598 (.node (.node (.node (.node (.node .leaf 119143 119145 .leaf) 119155 119170 (.node .leaf 119173 119179 .leaf)) 119210 119213 (.node (.node .leaf 119362 119364 .leaf) 121344 121398 .leaf)) 121403 121452 (.node (.node (.node .leaf 121461 121461 .leaf) 121476 121476 .leaf) 121499 121503 (.node (.node .leaf 121505 121519 .leaf) 122880 122886 .leaf))) 122888 122904 (.node (.node (.node (.node .leaf 122907 122913 .leaf) 122915 122916 (.node .leaf 122918 122922 .leaf)) 123184 123197 (.node (.node .leaf 123566 123566 .leaf) 123628 123631 .leaf)) 125136 125142 (.node (.node (.node .leaf 125252 125259 .leaf) 127995 127999 .leaf) 917505 917505 (.node (.node .leaf 917536 917631 .leaf) 917760 917999 .leaf)))))
/-- Case_Ignorable code points (as used by `str.lower`) -/
def caseIgnorableRanges : RTree := (.node (.node (.node caseIgnorableRanges_0 2433 2433 caseIgnorableRanges_1) 3542 3542 (.node caseIgnorableRanges_2 6754 6754 caseIgnorableRanges_3)) 11744 11775 (.node (.node caseIgnorableRanges_4 43881 43883 caseIgnorableRanges_5) 70089 70092 (.node caseIgnorableRanges_6 72850 72871 caseIgnorableRanges_7)))

def lowerMap_0 : MTree := (.node (.node (.node (.node (.node (.node .leaf 65 [97] .leaf) 66 [98] .leaf) 67 [99] (.node (.node .leaf 68 [100] .leaf) 69 [101] .leaf)) 70 [102] (.node (.node (.node .leaf 71 [103] .leaf) 72 [104] .leaf) 73 [105] (.node (.node .leaf 74 [106] .leaf) 75 [107] .leaf))) 76 [108] (.node (.node (.node (.node .leaf 77 [109] .leaf) 78 [110] .leaf) 79 [111] (.node (.node .leaf 80 [112] .leaf) 81 [113] .leaf)) 82 [114] (.node (.node (.node .leaf 83 [115] .leaf) 84 [116] .leaf) 85 [117] (.node .leaf 86 [118] .leaf)))) 87 [119] (.node (.node (.node (.node (.node .leaf 88 [120] .leaf) 89 [121] .leaf) 90 [122] (.node (.node .leaf 192 [224] .leaf) 193 [225] .leaf)) 194 [226] (.node (.node (.node .leaf 195 [227] .leaf) 196 [228] .leaf) 197 [229] (.node .leaf 198 [230] .leaf))) 199 [231] (.node (.node (.node (.node .leaf 200 [232] .leaf) 201 [233] .leaf) 202 [234] (.node (.node .leaf 203 [235] .leaf) 204 [236] .leaf)) 205 [237] (.node (.node (.node .leaf 206 [238] .leaf) 207 [239] .leaf) 208 [240] (.node .leaf 209 [241] .leaf)))))
def lowerMap_1 : MTree := (.node (.node (.node (.node (.node (.node .leaf 211 [243] .leaf) 212 [244] .leaf) 213 [245] (.node (.node .leaf 214 [246] .leaf) 216 [248] .leaf)) 217 [249] (.node (.node (.node .leaf 218 [250] .leaf) 219 [251] .leaf) 220 [252] (.node (.node .leaf 221 [253] .leaf) 222 [254] .leaf))) 256 [257] (.node (.node (.node (.node .leaf 258 [259] .leaf) 260 [261] .leaf) 262 [263] (.node (.node .leaf 264 [265] .leaf) 266 [267] .leaf)) 268 [269] (.node (.node (.node .leaf 270 [271] .leaf) 272 [273] .leaf) 274 [275] (.node .leaf 276 [277] .leaf)))) 278 [279] (.node (.node (.node (.node (.node .leaf 280 [281] .leaf) 282 [283] .leaf) 284 [285] (.node (.node .leaf 286 [287] .leaf) 288 [289] .leaf)) 290 [291] (.node (.node (.node .leaf 292 [293] .leaf) 294 [295] .leaf) 296 [297] (.node .leaf 298 [299] .leaf))) 300 [301] (.node (.node (.node (.node .leaf 302 [303] .leaf) 304 [105, 775] .leaf) 306 [307] (.node (.node .leaf 308 [309] .leaf) 310 [311] .leaf)) 313 [314] (.node (.node (.node .leaf 315 [316] .leaf) 317 [318] .leaf) 319 [320] (.node .leaf 321 [322] .leaf)))))
def lowerMap_2 : MTree := (.node (.node (.node (.node (.node (.node .leaf 325 [326] .leaf) 327 [328] .leaf) 330 [331] (.node (.node .leaf 332 [333] .leaf) 334 [335] .leaf)) 336 [337] (.node (.node (.node .leaf 338 [339] .leaf) 340 [341] .leaf) 342 [343] (.node (.node .leaf 344 [345] .leaf) 346 [347] .leaf))) 348 [349] (.node (.node (.node (.node .leaf 350 [351] .leaf) 352 [353] .leaf) 354 [355] (.node (.node .leaf 356 [357] .leaf) 358 [359] .leaf)) 360 [361] (.node (.node (.node .leaf 362 [363] .leaf) 364 [365] .leaf) 366 [367] (.node .leaf 368 [369] .leaf)))) 370 [371] (.node (.node (.node (.node (.node .leaf 372 [373] .leaf) 374 [375] .leaf) 376 [255] (.node (.node .leaf 377 [378] .leaf) 379 [380] .leaf)) 381 [382] (.node (.node (.node .leaf 385 [595] .leaf) 386 [387] .leaf) 388 [389] (.node .leaf 390 [596] .leaf))) 391 [392] (.node (.node (.node (.node .leaf 393 [598] .leaf) 394 [599] .leaf) 395 [396] (.node (.node .leaf 398 [477] .leaf) 399 [601] .leaf)) 400 [603] (.node (.node (.node .leaf 401 [402] .leaf) 403 [608] .leaf) 404 [611] (.node .leaf 406 [617] .leaf)))))
def lowerMap_3 : MTree := (.node (.node (.node (.node (.node (.node .leaf 408 [409] .leaf) 412 [623] .leaf) 413 [626] (.node (.node .leaf 415 [629] .leaf) 416 [417] .leaf)) 418 [419] (.node (.node (.node .leaf 420 [421] .leaf) 422 [640] .leaf) 423 [424] (.node (.node .leaf 425 [643] .leaf) 428 [429] .leaf))) 430 [648] (.node (.node (.node (.node .leaf 431 [432] .leaf) 433 [650] .leaf) 434 [651] (.node (.node .leaf 435 [436] .leaf) 437 [438] .leaf)) 439 [658] (.node (.node (.node .leaf 440 [441] .leaf) 444 [445] .leaf) 452 [454] (.node .leaf 453 [454] .leaf)))) 455 [457] (.node (.node (.node (.node (.node .leaf 456 [457] .leaf) 458 [460] .leaf) 459 [460] (.node (.node .leaf 461 [462] .leaf) 463 [464] .leaf)) 465 [466] (.node (.node (.node .leaf 467 [468] .leaf) 469 [470] .leaf) 471 [472] (.node .leaf 473 [474] .leaf))) 475 [476] (.node (.node (.node (.node .leaf 478 [479] .leaf) 480 [481] .leaf) 482 [483] (.node (.node .leaf 484 [485] .leaf) 486 [487] .leaf)) 488 [489] (.node (.node (.node .leaf 490 [491] .leaf) 492 [493] .leaf) 494 [495] (.node .leaf 497 [499] .leaf)))))
def lowerMap_4 : MTree := (.node (.node (.node (.node (.node (.node .leaf 500 [501] .leaf) 502 [405] .leaf) 503 [447] (.node (.node .leaf 504 [505] .leaf) 506 [507] .leaf)) 508 [509] (.node (.node (.node .leaf 510 [511] .leaf) 512 [513] .leaf) 514 [515] (.node (.node .leaf 516 [517] .leaf) 518 [519] .leaf))) 520 [521] (.node (.node (.node (.node .leaf 522 [523] .leaf) 524 [525] .leaf) 526 [527] (.node (.node .leaf 528 [529] .leaf) 530 [531] .leaf)) 532 [533] (.node (.node (.node .leaf 534 [535] .leaf) 536 [537] .leaf) 538 [539] (.node .leaf 540 [541] .leaf)))) 542 [543] (.node (.node (.node (.node (.node .leaf 544 [414] .leaf) 546 [547] .leaf) 548 [549] (.node (.node .leaf 550 [551] .leaf) 552 [553] .leaf)) 554 [555] (.node (.node (.node .leaf 556 [557] .leaf) 558 [559] .leaf) 560 [561] (.node .leaf 562 [563] .leaf))) 570 [11365] (.node (.node (.node (.node .leaf 571 [572] .leaf) 573 [410] .leaf) 574 [11366] (.node (.node .leaf 577 [578] .leaf) 579 [384] .leaf)) 580 [649] (.node (.node (.node .leaf 581 [652] .leaf) 582 [583] .leaf) 584 [585] (.node .leaf 586 [587] .leaf)))))
def lowerMap_5 : MTree := (.node (.node (.node (.node (.node (.node .leaf 590 [591] .leaf) 880 [881] .leaf) 882 [883] (.node (.node .leaf 886 [887] .leaf) 895 [1011] .leaf)) 902 [940] (.node (.node (.node .leaf 904 [941] .leaf) 905 [942] .leaf) 906 [943] (.node (.node .leaf 908 [972] .leaf) 910 [973] .leaf))) 911 [974] (.node (.node (.node (.node .leaf 913 [945] .leaf) 914 [946] .leaf) 915 [947] (.node (.node .leaf 916 [948] .leaf) 917 [949] .leaf)) 918 [950] (.node (.node (.node .leaf 919 [951] .leaf) 920 [952] .leaf) 921 [953] (.node .leaf 922 [954] .leaf)))) 923 [955] (.node (.node (.node (.node (.node .leaf 924 [956] .leaf) 925 [957] .leaf) 926 [958] (.node (.node .leaf 927 [959] .leaf) 928 [960] .leaf)) 929 [961] (.node (.node (.node .leaf 931 [963] .leaf) 932 [964] .leaf) 933 [965] (.node .leaf 934 [966] .leaf))) 935 [967] (.node (.node (.node (.node .leaf 936 [968] .leaf) 937 [969] .leaf) 938 [970] (.node (.node .leaf 939 [971] .leaf) 975 [983] .leaf)) 984 [985] (.node (.node (.node .leaf 986 [987] .leaf) 988 [989] .leaf) 990 [991] (.node .leaf 992 [993] .leaf)))))
def lowerMap_6 : MTree := (.node (.node (.node (.node (.node (.node .leaf 996 [997] .leaf) 998 [999] .leaf) 1000 [1001] (.node (.node .leaf 1002 [1003] .leaf) 1004 [1005] .leaf)) 1006 [1007] (.node (.node (.node .leaf 1012 [952] .leaf) 1015 [1016] .leaf) 1017 [1010] (.node (.node .leaf 1018 [1019] .leaf) 1021 [891] .leaf))) 1022 [892] (.node (.node (.node (.node .leaf 1023 [893] .leaf) 1024 [1104] .leaf) 1025 [1105] (.node (.node .leaf 1026 [1106] .leaf) 1027 [1107] .leaf)) 1028 [1108] (.node (.node (.node .leaf 1029 [1109] .leaf) 1030 [1110] .leaf) 1031 [1111] (.node .leaf 1032 [1112] .leaf)))) 1033 [1113] (.node (.node (.node (.node (.node .leaf 1034 [1114] .leaf) 1035 [1115] .leaf) 1036 [1116] (.node (.node .leaf 1037 [1117] .leaf) 1038 [1118] .leaf)) 1039 [1119] (.node (.node (.node .leaf 1040 [1072] .leaf) 1041 [1073] .leaf) 1042 [1074] (.node .leaf 1043 [1075] .leaf))) 1044 [1076] (.node (.node (.node (.node .leaf 1045 [1077] .leaf) 1046 [1078] .leaf) 1047 [1079] (.node (.node .leaf 1048 [1080] .leaf) 1049 [1081] .leaf)) 1050 [1082] (.node (.node (.node .leaf 1051 [1083] .leaf) 1052 [1084] .leaf) 1053 [1085] (.node .leaf 1054 [1086] .leaf)))))
def lowerMap_7 : MTree := (.node (.node (.node (.node (.node (.node .leaf 1056 [1088] .leaf) 1057 [1089] .leaf) 1058 [1090] (.node (.node .leaf 1059 [1091] .leaf) 1060 [1092] .leaf)) 1061 [1093] (.node (.node (.node .leaf 1062 [1094] .leaf) 1063 [1095] .leaf) 1064 [1096] (.node .leaf 1065 [1097] .leaf))) 1066 [1098] (.node (.node (.node (.node .leaf 1067 [1099] .leaf) 1068 [1100] .leaf) 1069 [1101] (.node (.node .leaf 1070 [1102] .leaf) 1071 [1103] .leaf)) 1120 [1121] (.node (.node (.node .leaf 1122 [1123] .leaf) 1124 [1125] .leaf) 1126 [1127] (.node .leaf 1128 [1129] .leaf)))) 1130 [1131] (.node (.node (.node (.node (.node .leaf 1132 [1133] .leaf) 1134 [1135] .leaf) 1136 [1137] (.node (.node .leaf 1138 [1139] .leaf) 1140 [1141] .leaf)) 1142 [1143] (.node (.node (.node .leaf 1144 [1145] .leaf) 1146 [1147] .leaf) 1148 [1149] (.node .leaf 1150 [1151] .leaf))) 1152 [1153] (.node (.node (.node (.node .leaf 1162 [1163] .leaf) 1164 [1165] .leaf) 1166 [1167] (.node (.node .leaf 1168 [1169] .leaf) 1170 [1171] .leaf)) 1172 [1173] (.node (.node (.node .leaf 1174 [1175] .leaf) 1176 [1177] .leaf) 1178 [1179] (.node .leaf 1180 [1181] .leaf)))))
def lowerMap_8 : MTree := (.node (.node (.node (.node (.node (.node .leaf 1184 [1185] .leaf) 1186 [1187] .leaf) 1188 [1189] (.node (.node .leaf 1190 [1191] .leaf) 1192 [1193] .leaf)) 1194 [1195] (.node (.node (.node .leaf 1196 [1197] .leaf) 1198 [1199] .leaf) 1200 [1201] (.node (.node .leaf 1202 [1203] .leaf) 1204 [1205] .leaf))) 1206 [1207] (.node (.node (.node (.node .leaf 1208 [1209] .leaf) 1210 [1211] .leaf) 1212 [1213] (.node (.node .leaf 1214 [1215] .leaf) 1216 [1231] .leaf)) 1217 [1218] (.node (.node (.node .leaf 1219 [1220] .leaf) 1221 [1222] .leaf) 1223 [1224] (.node .leaf 1225 [1226] .leaf)))) 1227 [1228] (.node (.node (.node (.node (.node .leaf 1229 [1230] .leaf) 1232 [1233] .leaf) 1234 [1235] (.node (.node .leaf 1236 [1237] .leaf) 1238 [1239] .leaf)) 1240 [1241] (.node (.node (.node .leaf 1242 [1243] .leaf) 1244 [1245] .leaf) 1246 [1247] (.node .leaf 1248 [1249] .leaf))) 1250 [1251] (.node (.node (.node (.node .leaf 1252 [1253] .leaf) 1254 [1255] .leaf) 1256 [1257] (.node (.node .leaf 1258 [1259] .leaf) 1260 [1261] .leaf)) 1262 [1263] (.node (.node (.node .leaf 1264 [1265] .leaf) 1266 [1267] .leaf) 1268 [1269] (.node .leaf 1270 [1271] .leaf)))))
def lowerMap_9 : MTree := (.node (.node (.node (.node (.node (.node .leaf 1274 [1275] .leaf) 1276 [1277] .leaf) 1278 [1279] (.node (.node .leaf 1280 [1281] .leaf) 1282 [1283] .leaf)) 1284 [1285] (.node (.node (.node .leaf 1286 [1287] .leaf) 1288 [1289] .leaf) 1290 [1291] (.node (.node .leaf 1292 [1293] .leaf) 1294 [1295] .leaf))) 1296 [1297] (.node (.node (.node (.node .leaf 1298 [1299] .leaf) 1300 [1301] .leaf) 1302 [1303] (.node (.node .leaf 1304 [1305] .leaf) 1306 [1307] .leaf)) 1308 [1309] (.node (.node (.node .leaf 1310 [1311] .leaf) 1312 [1313] .leaf) 1314 [1315] (.node .leaf 1316 [1317] .leaf)))) 1318 [1319] (.node (.node (.node (.node (.node .leaf 1320 [1321] .leaf) 1322 [1323] .leaf) 1324 [1325] (.node (.node .leaf 1326 [1327] .leaf) 1329 [1377] .leaf)) 1330 [1378] (.node (.node (.node .leaf 1331 [1379] .leaf) 1332 [1380] .leaf) 1333 [1381] (.node .leaf 1334 [1382] .leaf))) 1335 [1383] (.node (.node (.node (.node .leaf 1336 [1384] .leaf) 1337 [1385] .leaf) 1338 [1386] (.node (.node .leaf 1339 [1387] .leaf) 1340 [1388] .leaf)) 1341 [1389] (.node (.node (.node .leaf 1342 [1390] .leaf) 1343 [1391] .leaf) 1344 [1392] (.node .leaf 1345 [1393] .leaf)))))
def lowerMap_10 : MTree := (.node (.node (.node (.node (.node (.node .leaf 1347 [1395] .leaf) 1348 [1396] .leaf) 1349 [1397] (.node (.node .leaf 1350 [1398] .leaf) 1351 [1399] .leaf)) 1352 [1400] (.node (.node (.node .leaf 1353 [1401] .leaf) 1354 [1402] .leaf) 1355 [1403] (.node (.node .leaf 1356 [1404] .leaf) 1357 [1405] .leaf))) 1358 [1406] (.node (.node (.node (.node .leaf 1359 [1407] .leaf) 1360 [1408] .leaf) 1361 [1409] (.node (.node .leaf 1362 [1410] .leaf) 1363 [1411] .leaf)) 1364 [1412] (.node (.node (.node .leaf 1365 [1413] .leaf) 1366 [1414] .leaf) 4256 [11520] (.node .leaf 4257 [11521] .leaf)))) 4258 [11522] (.node (.node (.node (.node (.node .leaf 4259 [11523] .leaf) 4260 [11524] .leaf) 4261 [11525] (.node (.node .leaf 4262 [11526] .leaf) 4263 [11527] .leaf)) 4264 [11528] (.node (.node (.node .leaf 4265 [11529] .leaf) 4266 [11530] .leaf) 4267 [11531] (.node .leaf 4268 [11532] .leaf))) 4269 [11533] (.node (.node (.node (.node .leaf 4270 [11534] .leaf) 4271 [11535] .leaf) 4272 [11536] (.node (.node .leaf 4273 [11537] .leaf) 4274 [11538] .leaf)) 4275 [11539] (.node (.node (.node .leaf 4276 [11540] .leaf) 4277 [11541] .leaf) 4278 [11542] (.node .leaf 4279 [11543] .leaf)))))
def lowerMap_11 : MTree := (.node (.node (.node (.node (.node (.node .leaf 4281 [11545] .leaf) 4282 [11546] .leaf) 4283 [11547] (.node (.node .leaf 4284 [11548] .leaf) 4285 [11549] .leaf)) 4286 [11550] (.node (.node (.node .leaf 4287 [11551] .leaf) 4288 [11552] .leaf) 4289 [11553] (.node .leaf 4290 [11554] .leaf))) 4291 [11555] (.node (.node (.node (.node .leaf 4292 [11556] .leaf) 4293 [11557] .leaf) 4295 [11559] (.node (.node .leaf 4301 [11565] .leaf) 5024 [43888] .leaf)) 5025 [43889] (.node (.node (.node .leaf 5026 [43890] .leaf) 5027 [43891] .leaf) 5028 [43892] (.node .leaf 5029 [43893] .leaf)))) 5030 [43894] (.node (.node (.node (.node (.node .leaf 5031 [43895] .leaf) 5032 [43896] .leaf) 5033 [43897] (.node (.node .leaf 5034 [43898] .leaf) 5035 [43899] .leaf)) 5036 [43900] (.node (.node (.node .leaf 5037 [43901] .leaf) 5038 [43902] .leaf) 5039 [43903] (.node .leaf 5040 [43904] .leaf))) 5041 [43905] (.node (.node (.node (.node .leaf 5042 [43906] .leaf) 5043 [43907] .leaf) 5044 [43908] (.node (.node .leaf 5045 [43909] .leaf) 5046 [43910] .leaf)) 5047 [43911] (.node (.node (.node .leaf 5048 [43912] .leaf) 5049 [43913] .leaf) 5050 [43914] (.node .leaf 5051 [43915] .leaf)))))
def lowerMap_12 : MTree := (.node (.node (.node (.node (.node (.node .leaf 5053 [43917] .leaf) 5054 [43918] .leaf) 5055 [43919] (.node (.node .leaf 5056 [43920] .leaf) 5057 [43921] .leaf)) 5058 [43922] (.node (.node (.node .leaf 5059 [43923] .leaf) 5060 [43924] .leaf) 5061 [43925] (.node (.node .leaf 5062 [43926] .leaf) 5063 [43927] .leaf))) 5064 [43928] (.node (.node (.node (.node .leaf 5065 [43929] .leaf) 5066 [43930] .leaf) 5067 [43931] (.node (.node .leaf 5068 [43932] .leaf) 5069 [43933] .leaf)) 5070 [43934] (.node (.node (.node .leaf 5071 [43935] .leaf) 5072 [43936] .leaf) 5073 [43937] (.node .leaf 5074 [43938] .leaf)))) 5075 [43939] (.node (.node (.node (.node (.node .leaf 5076 [43940] .leaf) 5077 [43941] .leaf) 5078 [43942] (.node (.node .leaf 5079 [43943] .leaf) 5080 [43944] .leaf)) 5081 [43945] (.node (.node (.node .leaf 5082 [43946] .leaf) 5083 [43947] .leaf) 5084 [43948] (.node .leaf 5085 [43949] .leaf))) 5086 [43950] (.node (.node (.node (.node .leaf 5087 [43951] .leaf) 5088 [43952] .leaf) 5089 [43953] (.node (.node .leaf 5090 [43954] .leaf) 5091 [43955] .leaf)) 5092 [43956] (.node (.node (.node .leaf 5093 [43957] .leaf) 5094 [43958] .leaf) 5095 [43959] (.node .leaf 5096 [43960] .leaf)))))
def lowerMap_13 : MTree := (.node (.node (.node (.node (.node (.node .leaf 5098 [43962] .leaf) 5099 [43963] .leaf) 5100 [43964] (.node (.node .leaf 5101 [43965] .leaf) 5102 [43966] .leaf)) 5103 [43967] (.node (.node (.node .leaf 5104 [5112] .leaf) 5105 [5113] .leaf) 5106 [5114] (.node (.node .leaf 5107 [5115] .leaf) 5108 [5116] .leaf))) 5109 [5117] (.node (.node (.node (.node .leaf 7312 [4304] .leaf) 7313 [4305] .leaf) 7314 [4306] (.node (.node .leaf 7315 [4307] .leaf) 7316 [4308] .leaf)) 7317 [4309] (.node (.node (.node .leaf 7318 [4310] .leaf) 7319 [4311] .leaf) 7320 [4312] (.node .leaf 7321 [4313] .leaf)))) 7322 [4314] (.node (.node (.node (.node (.node .leaf 7323 [4315] .leaf) 7324 [4316] .leaf) 7325 [4317] (.node (.node .leaf 7326 [4318] .leaf) 7327 [4319] .leaf)) 7328 [4320] (.node (.node (.node .leaf 7329 [4321] .leaf) 7330 [4322] .leaf) 7331 [4323] (.node .leaf 7332 [4324] .leaf))) 7333 [4325] (.node (.node (.node (.node .leaf 7334 [4326] .leaf) 7335 [4327] .leaf) 7336 [4328] (.node (.node .leaf 7337 [4329] .leaf) 7338 [4330] .leaf)) 7339 [4331] (.node (.node (.node .leaf 7340 [4332] .leaf) 7341 [4333] .leaf) 7342 [4334] (.node .leaf 7343 [4335] .leaf)))))
def lowerMap_14 : MTree := (.node (.node (.node (.node (.node (.node .leaf 7345 [4337] .leaf) 7346 [4338] .leaf) 7347 [4339] (.node (.node .leaf 7348 [4340] .leaf) 7349 [4341] .leaf)) 7350 [4342] (.node (.node (.node .leaf 7351 [4343] .leaf) 7352 [4344] .leaf) 7353 [4345] (.node (.node .leaf 7354 [4346] .leaf) 7357 [4349] .leaf))) 7358 [4350] (.node (.node (.node (.node .leaf 7359 [4351] .leaf) 7680 [7681] .leaf) 7682 [7683] (.node (.node .leaf 7684 [7685] .leaf) 7686 [7687] .leaf)) 7688 [7689] (.node (.node (.node .leaf 7690 [7691] .leaf) 7692 [7693] .leaf) 7694 [7695] (.node .leaf 7696 [7697] .leaf)))) 7698 [7699] (.node (.node (.node (.node (.node .leaf 7700 [7701] .leaf) 7702 [7703] .leaf) 7704 [7705] (.node (.node .leaf 7706 [7707] .leaf) 7708 [7709] .leaf)) 7710 [7711] (.node (.node (.node .leaf 7712 [7713] .leaf) 7714 [7715] .leaf) 7716 [7717] (.node .leaf 7718 [7719] .leaf))) 7720 [7721] (.node (.node (.node (.node .leaf 7722 [7723] .leaf) 7724 [7725] .leaf) 7726 [7727] (.node (.node .leaf 7728 [7729] .leaf) 7730 [7731] .leaf)) 7732 [7733] (.node (.node (.node .leaf 7734 [7735] .leaf) 7736 [7737] .leaf) 7738 [7739] (.node .leaf 7740 [7741] .leaf)))))
def lowerMap_15 : MTree := (.node (.node (.node (.node (.node (.node .leaf 7744 [7745] .leaf) 7746 [7747] .leaf) 7748 [7749] (.node (.node .leaf 7750 [7751] .leaf) 7752 [7753] .leaf)) 7754 [7755] (.node (.node (.node .leaf 7756 [7757] .leaf) 7758 [7759] .leaf) 7760 [7761] (.node .leaf 7762 [7763] .leaf))) 7764 [7765] (.node (.node (.node (.node .leaf 7766 [7767] .leaf) 7768 [7769] .leaf) 7770 [7771] (.node (.node .leaf 7772 [7773] .leaf) 7774 [7775] .leaf)) 7776 [7777] (.node (.node (.node .leaf 7778 [7779] .leaf) 7780 [7781] .leaf) 7782 [7783] (.node .leaf 7784 [7785] .leaf)))) 7786 [7787] (.node (.node (.node (.node (.node .leaf 7788 [7789] .leaf) 7790 [7791] .leaf) 7792 [7793] (.node (.node .leaf 7794 [7795] .leaf) 7796 [7797] .leaf)) 7798 [7799] (.node (.node (.node .leaf 7800 [7801] .leaf) 7802 [7803] .leaf) 7804 [7805] (.node .leaf 7806 [7807] .leaf))) 7808 [7809] (.node (.node (.node (.node .leaf 7810 [7811] .leaf) 7812 [7813] .leaf) 7814 [7815] (.node (.node .leaf 7816 [7817] .leaf) 7818 [7819] .leaf)) 7820 [7821] (.node (.node (.node .leaf 7822 [7823] .leaf) 7824 [7825] .leaf) 7826 [7827] (.node .leaf 7828 [7829] .leaf)))))
def lowerMap_16 : MTree := (.node (.node (.node (.node (.node (.node .leaf 7840 [7841] .leaf) 7842 [7843] .leaf) 7844 [7845] (.node (.node .leaf 7846 [7847] .leaf) 7848 [7849] .leaf)) 7850 [7851] (.node (.node (.node .leaf 7852 [7853] .leaf) 7854 [7855] .leaf) 7856 [7857] (.node (.node .leaf 7858 [7859] .leaf) 7860 [7861] .leaf))) 7862 [7863] (.node (.node (.node (.node .leaf 7864 [7865] .leaf) 7866 [7867] .leaf) 7868 [7869] (.node (.node .leaf 7870 [7871] .leaf) 7872 [7873] .leaf)) 7874 [7875] (.node (.node (.node .leaf 7876 [7877] .leaf) 7878 [7879] .leaf) 7880 [7881] (.node .leaf 7882 [7883] .leaf)))) 7884 [7885] (.node (.node (.node (.node (.node .leaf 7886 [7887] .leaf) 7888 [7889] .leaf) 7890 [7891] (.node (.node .leaf 7892 [7893] .leaf) 7894 [7895] .leaf)) 7896 [7897] (.node (.node (.node .leaf 7898 [7899] .leaf) 7900 [7901] .leaf) 7902 [7903] (.node .leaf 7904 [7905] .leaf))) 7906 [7907] (.node (.node (.node (.node .leaf 7908 [7909] .leaf) 7910 [7911] .leaf) 7912 [7913] (.node (.node .leaf 7914 [7915] .leaf) 7916 [7917] .leaf)) 7918 [7919] (.node (.node (.node .leaf 7920 [7921] .leaf) 7922 [7923] .leaf) 7924 [7925] (.node .leaf 7926 [7927] .leaf)))))
def lowerMap_17 : MTree := (.node (.node (.node (.node (.node (.node .leaf 7930 [7931] .leaf) 7932 [7933] .leaf) 7934 [7935] (.node (.node .leaf 7944 [7936] .leaf) 7945 [7937] .leaf)) 7946 [7938] (.node (.node (.node .leaf 7947 [7939] .leaf) 7948 [7940] .leaf) 7949 [7941] (.node (.node .leaf 7950 [7942] .leaf) 7951 [7943] .leaf))) 7960 [7952] (.node (.node (.node (.node .leaf 7961 [7953] .leaf) 7962 [7954] .leaf) 7963 [7955] (.node (.node .leaf 7964 [7956] .leaf) 7965 [7957] .leaf)) 7976 [7968] (.node (.node (.node .leaf 7977 [7969] .leaf) 7978 [7970] .leaf) 7979 [7971] (.node .leaf 7980 [7972] .leaf)))) 7981 [7973] (.node (.node (.node (.node (.node .leaf 7982 [7974] .leaf) 7983 [7975] .leaf) 7992 [7984] (.node (.node .leaf 7993 [7985] .leaf) 7994 [7986] .leaf)) 7995 [7987] (.node (.node (.node .leaf 7996 [7988] .leaf) 7997 [7989] .leaf) 7998 [7990] (.node .leaf 7999 [7991] .leaf))) 8008 [8000] (.node (.node (.node (.node .leaf 8009 [8001] .leaf) 8010 [8002] .leaf) 8011 [8003] (.node (.node .leaf 8012 [8004] .leaf) 8013 [8005] .leaf)) 8025 [8017] (.node (.node (.node .leaf 8027 [8019] .leaf) 8029 [8021] .leaf) 8031 [8023] (.node .leaf 8040 [8032] .leaf)))))
def lowerMap_18 : MTree := (.node (.node (.node (.node (.node (.node .leaf 8042 [8034] .leaf) 8043 [8035] .leaf) 8044 [8036] (.node (.node .leaf 8045 [8037] .leaf) 8046 [8038] .leaf)) 8047 [8039] (.node (.node (.node .leaf 8072 [8064] .leaf) 8073 [8065] .leaf) 8074 [8066] (.node (.node .leaf 8075 [8067] .leaf) 8076 [8068] .leaf))) 8077 [8069] (.node (.node (.node (.node .leaf 8078 [8070] .leaf) 8079 [8071] .leaf) 8088 [8080] (.node (.node .leaf 8089 [8081] .leaf) 8090 [8082] .leaf)) 8091 [8083] (.node (.node (.node .leaf 8092 [8084] .leaf) 8093 [8085] .leaf) 8094 [8086] (.node .leaf 8095 [8087] .leaf)))) 8104 [8096] (.node (.node (.node (.node (.node .leaf 8105 [8097] .leaf) 8106 [8098] .leaf) 8107 [8099] (.node (.node .leaf 8108 [8100] .leaf) 8109 [8101] .leaf)) 8110 [8102] (.node (.node (.node .leaf 8111 [8103] .leaf) 8120 [8112] .leaf) 8121 [8113] (.node .leaf 8122 [8048] .leaf))) 8123 [8049] (.node (.node (.node (.node .leaf 8124 [8115] .leaf) 8136 [8050] .leaf) 8137 [8051] (.node (.node .leaf 8138 [8052] .leaf) 8139 [8053] .leaf)) 8140 [8131] (.node (.node (.node .leaf 8152 [8144] .leaf) 8153 [8145] .leaf) 8154 [8054] (.node .leaf 8155 [8055] .leaf)))))
def lowerMap_19 : MTree := (.node (.node (.node (.node (.node (.node .leaf 8169 [8161] .leaf) 8170 [8058] .leaf) 8171 [8059] (.node (.node .leaf 8172 [8165] .leaf) 8184 [8056] .leaf)) 8185 [8057] (.node (.node (.node .leaf 8186 [8060] .leaf) 8187 [8061] .leaf) 8188 [8179] (.node (.node .leaf 8486 [969] .leaf) 8490 [107] .leaf))) 8491 [229] (.node (.node (.node (.node .leaf 8498 [8526] .leaf) 8544 [8560] .leaf) 8545 [8561] (.node (.node .leaf 8546 [8562] .leaf) 8547 [8563] .leaf)) 8548 [8564] (.node (.node (.node .leaf 8549 [8565] .leaf) 8550 [8566] .leaf) 8551 [8567] (.node .leaf 8552 [8568] .leaf)))) 8553 [8569] (.node (.node (.node (.node (.node .leaf 8554 [8570] .leaf) 8555 [8571] .leaf) 8556 [8572] (.node (.node .leaf 8557 [8573] .leaf) 8558 [8574] .leaf)) 8559 [8575] (.node (.node (.node .leaf 8579 [8580] .leaf) 9398 [9424] .leaf) 9399 [9425] (.node .leaf 9400 [9426] .leaf))) 9401 [9427] (.node (.node (.node (.node .leaf 9402 [9428] .leaf) 9403 [9429] .leaf) 9404 [9430] (.node (.node .leaf 9405 [9431] .leaf) 9406 [9432] .leaf)) 9407 [9433] (.node (.node (.node .leaf 9408 [9434] .leaf) 9409 [9435] .leaf) 9410 [9436] (.node .leaf 9411 [9437] .leaf)))))
def lowerMap_20 : MTree := (.node (.node (.node (.node (.node (.node .leaf 9413 [9439] .leaf) 9414 [9440] .leaf) 9415 [9441] (.node (.node .leaf 9416 [9442] .leaf) 9417 [9443] .leaf)) 9418 [9444] (.node (.node (.node .leaf 9419 [9445] .leaf) 9420 [9446] .leaf) 9421 [9447] (.node (.node .leaf 9422 [9448] .leaf) 9423 [9449] .leaf))) 11264 [11312] (.node (.node (.node (.node .leaf 11265 [11313] .leaf) 11266 [11314] .leaf) 11267 [11315] (.node (.node .leaf 11268 [11316] .leaf) 11269 [11317] .leaf)) 11270 [11318] (.node (.node (.node .leaf 11271 [11319] .leaf) 11272 [11320] .leaf) 11273 [11321] (.node .leaf 11274 [11322] .leaf)))) 11275 [11323] (.node (.node (.node (.node (.node .leaf 11276 [11324] .leaf) 11277 [11325] .leaf) 11278 [11326] (.node (.node .leaf 11279 [11327] .leaf) 11280 [11328] .leaf)) 11281 [11329] (.node (.node (.node .leaf 11282 [11330] .leaf) 11283 [11331] .leaf) 11284 [11332] (.node .leaf 11285 [11333] .leaf))) 11286 [11334] (.node (.node (.node (.node .leaf 11287 [11335] .leaf) 11288 [11336] .leaf) 11289 [11337] (.node (.node .leaf 11290 [11338] .leaf) 11291 [11339] .leaf)) 11292 [11340] (.node (.node (.node .leaf 11293 [11341] .leaf) 11294 [11342] .leaf) 11295 [11343] (.node .leaf 11296 [11344] .leaf)))))
def lowerMap_21 : MTree := (.node (.node (.node (.node (.node (.node .leaf 11298 [11346] .leaf) 11299 [11347] .leaf) 11300 [11348] (.node (.node .leaf 11301 [11349] .leaf) 11302 [11350] .leaf)) 11303 [11351] (.node (.node (.node .leaf 11304 [11352] .leaf) 11305 [11353] .leaf) 11306 [11354] (.node (.node .leaf 11307 [11355] .leaf) 11308 [11356] .leaf))) 11309 [11357] (.node (.node (.node (.node .leaf 11310 [11358] .leaf) 11311 [11359] .leaf) 11360 [11361] (.node (.node .leaf 11362 [619] .leaf) 11363 [7549] .leaf)) 11364 [637] (.node (.node (.node .leaf 11367 [11368] .leaf) 11369 [11370] .leaf) 11371 [11372] (.node .leaf 11373 [593] .leaf)))) 11374 [625] (.node (.node (.node (.node (.node .leaf 11375 [592] .leaf) 11376 [594] .leaf) 11378 [11379] (.node (.node .leaf 11381 [11382] .leaf) 11390 [575] .leaf)) 11391 [576] (.node (.node (.node .leaf 11392 [11393] .leaf) 11394 [11395] .leaf) 11396 [11397] (.node .leaf 11398 [11399] .leaf))) 11400 [11401] (.node (.node (.node (.node .leaf 11402 [11403] .leaf) 11404 [11405] .leaf) 11406 [11407] (.node (.node .leaf 11408 [11409] .leaf) 11410 [11411] .leaf)) 11412 [11413] (.node (.node (.node .leaf 11414 [11415] .leaf) 11416 [11417] .leaf) 11418 [11419] (.node .leaf 11420 [11421] .leaf)))))
def lowerMap_22 : MTree := (.node (.node (.node (.node (.node (.node .leaf 11424 [11425] .leaf) 11426 [11427] .leaf) 11428 [11429] (.node (.node .leaf 11430 [11431] .leaf) 11432 [11433] .leaf)) 11434 [11435] (.node (.node (.node .leaf 11436 [11437] .leaf) 11438 [11439] .leaf) 11440 [11441] (.node (.node .leaf 11442 [11443] .leaf) 11444 [11445] .leaf))) 11446 [11447] (.node (.node (.node (.node .leaf 11448 [11449] .leaf) 11450 [11451] .leaf) 11452 [11453] (.node (.node .leaf 11454 [11455] .leaf) 11456 [11457] .leaf)) 11458 [11459] (.node (.node (.node .leaf 11460 [11461] .leaf) 11462 [11463] .leaf) 11464 [11465] (.node .leaf 11466 [11467] .leaf)))) 11468 [11469] (.node (.node (.node (.node (.node .leaf 11470 [11471] .leaf) 11472 [11473] .leaf) 11474 [11475] (.node (.node .leaf 11476 [11477] .leaf) 11478 [11479] .leaf)) 11480 [11481] (.node (.node (.node .leaf 11482 [11483] .leaf) 11484 [11485] .leaf) 11486 [11487] (.node .leaf 11488 [11489] .leaf))) 11490 [11491] (.node (.node (.node (.node .leaf 11499 [11500] .leaf) 11501 [11502] .leaf) 11506 [11507] (.node (.node .leaf 42560 [42561] .leaf) 42562 [42563] .leaf)) 42564 [42565] (.node (.node (.node .leaf 42566 [42567] .leaf) 42568 [42569] .leaf) 42570 [42571] (.node .leaf 42572 [42573] .leaf)))))
def lowerMap_23 : MTree := (.node (.node (.node (.node (.node (.node .leaf 42576 [42577] .leaf) 42578 [42579] .leaf) 42580 [42581] (.node (.node .leaf 42582 [42583] .leaf) 42584 [42585] .leaf)) 42586 [42587] (.node (.node (.node .leaf 42588 [42589] .leaf) 42590 [42591] .leaf) 42592 [42593] (.node .leaf 42594 [42595] .leaf))) 42596 [42597] (.node (.node (.node (.node .leaf 42598 [42599] .leaf) 42600 [42601] .leaf) 42602 [42603] (.node (.node .leaf 42604 [42605] .leaf) 42624 [42625] .leaf)) 42626 [42627] (.node (.node (.node .leaf 42628 [42629] .leaf) 42630 [42631] .leaf) 42632 [42633] (.node .leaf 42634 [42635] .leaf)))) 42636 [42637] (.node (.node (.node (.node (.node .leaf 42638 [42639] .leaf) 42640 [42641] .leaf) 42642 [42643] (.node (.node .leaf 42644 [42645] .leaf) 42646 [42647] .leaf)) 42648 [42649] (.node (.node (.node .leaf 42650 [42651] .leaf) 42786 [42787] .leaf) 42788 [42789] (.node .leaf 42790 [42791] .leaf))) 42792 [42793] (.node (.node (.node (.node .leaf 42794 [42795] .leaf) 42796 [42797] .leaf) 42798 [42799] (.node (.node .leaf 42802 [42803] .leaf) 42804 [42805] .leaf)) 42806 [42807] (.node (.node (.node .leaf 42808 [42809] .leaf) 42810 [42811] .leaf) 42812 [42813] (.node .leaf 42814 [42815] .leaf)))))
def lowerMap_24 : MTree := (.node (.node (.node (.node (.node (.node .leaf 42818 [42819] .leaf) 42820 [42821] .leaf) 42822 [42823] (.node (.node .leaf 42824 [42825] .leaf) 42826 [42827] .leaf)) 42828 [42829] (.node (.node (.node .leaf 42830 [42831] .leaf) 42832 [42833] .leaf) 42834 [42835] (.node (.node .leaf 42836 [42837] .leaf) 42838 [42839] .leaf))) 42840 [42841] (.node (.node (.node (.node .leaf 42842 [42843] .leaf) 42844 [42845] .leaf) 42846 [42847] (.node (.node .leaf 42848 [42849] .leaf) 42850 [42851] .leaf)) 42852 [42853] (.node (.node (.node .leaf 42854 [42855] .leaf) 42856 [42857] .leaf) 42858 [42859] (.node .leaf 42860 [42861] .leaf)))) 42862 [42863] (.node (.node (.node (.node (.node .leaf 42873 [42874] .leaf) 42875 [42876] .leaf) 42877 [7545] (.node (.node .leaf 42878 [42879] .leaf) 42880 [42881] .leaf)) 42882 [42883] (.node (.node (.node .leaf 42884 [42885] .leaf) 42886 [42887] .leaf) 42891 [42892] (.node .leaf 42893 [613] .leaf))) 42896 [42897] (.node (.node (.node (.node .leaf 42898 [42899] .leaf) 42902 [42903] .leaf) 42904 [42905] (.node (.node .leaf 42906 [42907] .leaf) 42908 [42909] .leaf)) 42910 [42911] (.node (.node (.node .leaf 42912 [42913] .leaf) 42914 [42915] .leaf) 42916 [42917] (.node .leaf 42918 [42919] .leaf)))))
def lowerMap_25 : MTree := (.node (.node (.node (.node (.node (.node .leaf 42922 [614] .leaf) 42923 [604] .leaf) 42924 [609] (.node (.node .leaf 42925 [620] .leaf) 42926 [618] .leaf)) 42928 [670] (.node (.node (.node .leaf 42929 [647] .leaf) 42930 [669] .leaf) 42931 [43859] (.node (.node .leaf 42932 [42933] .leaf) 42934 [42935] .leaf))) 42936 [42937] (.node (.node (.node (.node .leaf 42938 [42939] .leaf) 42940 [42941] .leaf) 42942 [42943] (.node (.node .leaf 42944 [42945] .leaf) 42946 [42947] .leaf)) 42948 [42900] (.node (.node (.node .leaf 42949 [642] .leaf) 42950 [7566] .leaf) 42951 [42952] (.node .leaf 42953 [42954] .leaf)))) 42960 [42961] (.node (.node (.node (.node (.node .leaf 42966 [42967] .leaf) 42968 [42969] .leaf) 42997 [42998] (.node (.node .leaf 65313 [65345] .leaf) 65314 [65346] .leaf)) 65315 [65347] (.node (.node (.node .leaf 65316 [65348] .leaf) 65317 [65349] .leaf) 65318 [65350] (.node .leaf 65319 [65351] .leaf))) 65320 [65352] (.node (.node (.node (.node .leaf 65321 [65353] .leaf) 65322 [65354] .leaf) 65323 [65355] (.node (.node .leaf 65324 [65356] .leaf) 65325 [65357] .leaf)) 65326 [65358] (.node (.node (.node .leaf 65327 [65359] .leaf) 65328 [65360] .leaf) 65329 [65361] (.node .leaf 65330 [65362] .leaf)))))
def lowerMap_26 : MTree := (.node (.node (.node (.node (.node (.node .leaf 65332 [65364] .leaf) 65333 [65365] .leaf) 65334 [65366] (.node (.node .leaf 65335 [65367] .leaf) 65336 [65368] .leaf)) 65337 [65369] (.node (.node (.node .leaf 65338 [65370] .leaf) 66560 [66600] .leaf) 66561 [66601] (.node (.node .leaf 66562 [66602] .leaf) 66563 [66603] .leaf))) 66564 [66604] (.node (.node (.node (.node .leaf 66565 [66605] .leaf) 66566 [66606] .leaf) 66567 [66607] (.node (.node .leaf 66568 [66608] .leaf) 66569 [66609] .leaf)) 66570 [66610] (.node (.node (.node .leaf 66571 [66611] .leaf) 66572 [66612] .leaf) 66573 [66613] (.node .leaf 66574 [66614] .leaf)))) 66575 [66615] (.node (.node (.node (.node (.node .leaf 66576 [66616] .leaf) 66577 [66617] .leaf) 66578 [66618] (.node (.node .leaf 66579 [66619] .leaf) 66580 [66620] .leaf)) 66581 [66621] (.node (.node (.node .leaf 66582 [66622] .leaf) 66583 [66623] .leaf) 66584 [66624] (.node .leaf 66585 [66625] .leaf))) 66586 [66626] (.node (.node (.node (.node .leaf 66587 [66627] .leaf) 66588 [66628] .leaf) 66589 [66629] (.node (.node .leaf 66590 [66630] .leaf) 66591 [66631] .leaf)) 66592 [66632] (.node (.node (.node .leaf 66593 [66633] .leaf) 66594 [66634] .leaf) 66595 [66635] (.node .leaf 66596 [66636] .leaf)))))
def lowerMap_27 : MTree := (.node (.node (.node (.node (.node (.node .leaf 66598 [66638] .leaf) 66599 [66639] .leaf) 66736 [66776] (.node (.node .leaf 66737 [66777] .leaf) 66738 [66778] .leaf)) 66739 [66779] (.node (.node (.node .leaf 66740 [66780] .leaf) 66741 [66781] .leaf) 66742 [66782] (.node .leaf 66743 [66783] .leaf))) 66744 [66784] (.node (.node (.node (.node .leaf 66745 [66785] .leaf) 66746 [66786] .leaf) 66747 [66787] (.node (.node .leaf 66748 [66788] .leaf) 66749 [66789] .leaf)) 66750 [66790] (.node (.node (.node .leaf 66751 [66791] .leaf) 66752 [66792] .leaf) 66753 [66793] (.node .leaf 66754 [66794] .leaf)))) 66755 [66795] (.node (.node (.node (.node (.node .leaf 66756 [66796] .leaf) 66757 [66797] .leaf) 66758 [66798] (.node (.node .leaf 66759 [66799] .leaf) 66760 [66800] .leaf)) 66761 [66801] (.node (.node (.node .leaf 66762 [66802] .leaf) 66763 [66803] .leaf) 66764 [66804] (.node .leaf 66765 [66805] .leaf))) 66766 [66806] (.node (.node (.node (.node .leaf 66767 [66807] .leaf) 66768 [66808] .leaf) 66769 [66809] (.node (.node .leaf 66770 [66810] .leaf) 66771 [66811] .leaf)) 66928 [66967] (.node (.node (.node .leaf 66929 [66968] .leaf) 66930 [66969] .leaf) 66931 [66970] (.node .leaf 66932 [66971] .leaf)))))
def lowerMap_28 : MTree := (.node (.node (.node (.node (.node (.node .leaf 66934 [66973] .leaf) 66935 [66974] .leaf) 66936 [66975] (.node (.node .leaf 66937 [66976] .leaf) 66938 [66977] .leaf)) 66940 [66979] (.node (.node (.node .leaf 66941 [66980] .leaf) 66942 [66981] .leaf) 66943 [66982] (.node (.node .leaf 66944 [66983] .leaf) 66945 [66984] .leaf))) 66946 [66985] (.node (.node (.node (.node .leaf 66947 [66986] .leaf) 66948 [66987] .leaf) 66949 [66988] (.node (.node .leaf 66950 [66989] .leaf) 66951 [66990] .leaf)) 66952 [66991] (.node (.node (.node .leaf 66953 [66992] .leaf) 66954 [66993] .leaf) 66956 [66995] (.node .leaf 66957 [66996] .leaf)))) 66958 [66997] (.node (.node (.node (.node (.node .leaf 66959 [66998] .leaf) 66960 [66999] .leaf) 66961 [67000] (.node (.node .leaf 66962 [67001] .leaf) 66964 [67003] .leaf)) 66965 [67004] (.node (.node (.node .leaf 68736 [68800] .leaf) 68737 [68801] .leaf) 68738 [68802] (.node .leaf 68739 [68803] .leaf))) 68740 [68804] (.node (.node (.node (.node .leaf 68741 [68805] .leaf) 68742 [68806] .leaf) 68743 [68807] (.node (.node .leaf 68744 [68808] .leaf) 68745 [68809] .leaf)) 68746 [68810] (.node (.node (.node .leaf 68747 [68811] .leaf) 68748 [68812] .leaf) 68749 [68813] (.node .leaf 68750 [68814] .leaf)))))
def lowerMap_29 : MTree := (.node (.node (.node (.node (.node (.node .leaf 68752 [68816] .leaf) 68753 [68817] .leaf) 68754 [68818] (.node (.node .leaf 68755 [68819] .leaf) 68756 [68820] .leaf)) 68757 [68821] (.node (.node (.node .leaf 68758 [68822] .leaf) 68759 [68823] .leaf) 68760 [68824] (.node (.node .leaf 68761 [68825] .leaf) 68762 [68826] .leaf))) 68763 [68827] (.node (.node (.node (.node .leaf 68764 [68828] .leaf) 68765 [68829] .leaf) 68766 [68830] (.node (.node .leaf 68767 [68831] .leaf) 68768 [68832] .leaf)) 68769 [68833] (.node (.node (.node .leaf 68770 [68834] .leaf) 68771 [68835] .leaf) 68772 [68836] (.node .leaf 68773 [68837] .leaf)))) 68774 [68838] (.node (.node (.node (.node (.node .leaf 68775 [68839] .leaf) 68776 [68840] .leaf) 68777 [68841] (.node (.node .leaf 68778 [68842] .leaf) 68779 [68843] .leaf)) 68780 [68844] (.node (.node (.node .leaf 68781 [68845] .leaf) 68782 [68846] .leaf) 68783 [68847] (.node .leaf 68784 [68848] .leaf))) 68785 [68849] (.node (.node (.node (.node .leaf 68786 [68850] .leaf) 71840 [71872] .leaf) 71841 [71873] (.node (.node .leaf 71842 [71874] .leaf) 71843 [71875] .leaf)) 71844 [71876] (.node (.node (.node .leaf 71845 [71877] .leaf) 71846 [71878] .leaf) 71847 [71879] (.node .leaf 71848 [71880] .leaf)))))
def lowerMap_30 : MTree := (.node (.node (.node (.node (.node (.node .leaf 71850 [71882] .leaf) 71851 [71883] .leaf) 71852 [71884] (.node (.node .leaf 71853 [71885] .leaf) 71854 [71886] .leaf)) 71855 [71887] (.node (.node (.node .leaf 71856 [71888] .leaf) 71857 [71889] .leaf) 71858 [71890] (.node (.node .leaf 71859 [71891] .leaf) 71860 [71892] .leaf))) 71861 [71893] (.node (.node (.node (.node .leaf 71862 [71894] .leaf) 71863 [71895] .leaf) 71864 [71896] (.node (.node .leaf 71865 [71897] .leaf) 71866 [71898] .leaf)) 71867 [71899] (.node (.node (.node .leaf 71868 [71900] .leaf) 71869 [71901] .leaf) 71870 [71902] (.node .leaf 71871 [71903] .leaf)))) 93760 [93792] (.node (.node (.node (.node (.node .leaf 93761 [93793] .leaf) 93762 [93794] .leaf) 93763 [93795] (.node (.node .leaf 93764 [93796] .leaf) 93765 [93797] .leaf)) 93766 [93798] (.node (.node (.node .leaf 93767 [93799] .leaf) 93768 [93800] .leaf) 93769 [93801] (.node .leaf 93770 [93802] .leaf))) 93771 [93803] (.node (.node (.node (.node .leaf 93772 [93804] .leaf) 93773 [93805] .leaf) 93774 [93806] (.node (.node .leaf 93775 [93807] .leaf) 93776 [93808] .leaf)) 93777 [93809] (.node (.node (.node .leaf 93778 [93810] .leaf) 93779 [93811] .leaf) 93780 [93812] (.node .leaf 93781 [93813] .leaf)))))
def lowerMap_31 : MTree := (.node (.node (.node (.node (.node (.node .leaf 93783 [93815] .leaf) 93784 [93816] .leaf) 93785 [93817] (.node (.node .leaf 93786 [93818] .leaf) 93787 [93819] .leaf)) 93788 [93820] (.node (.node (.node .leaf 93789 [93821] .leaf) 93790 [93822] .leaf) 93791 [93823] (.node .leaf 125184 [125218] .leaf))) 125185 [125219] (.node (.node (.node (.node .leaf 125186 [125220] .leaf) 125187 [125221] .leaf) 125188 [125222] (.node (.node .leaf 125189 [125223] .leaf) 125190 [125224] .leaf)) 125191 [125225] (.node (.node (.node .leaf 125192 [125226] .leaf) 125193 [125227] .leaf) 125194 [125228] (.node .leaf 125195 [125229] .leaf)))) 125196 [125230] (.node (.node (.node (.node (.node .leaf 125197 [125231] .leaf) 125198 [125232] .leaf) 125199 [125233] (.node (.node .leaf 125200 [125234] .leaf) 125201 [125235] .leaf)) 125202 [125236] (.node (.node (.node .leaf 125203 [125237] .leaf) 125204 [125238] .leaf) 125205 [125239] (.node .leaf 125206 [125240] .leaf))) 125207 [125241] (.node (.node (.node (.node .leaf 125208 [125242] .leaf) 125209 [125243] .leaf) 125210 [125244] (.node (.node .leaf 125211 [125245] .leaf) 125212 [125246] .leaf)) 125213 [125247] (.node (.node (.node .leaf 125214 [125248] .leaf) 125215 [125249] .leaf) 125216 [125250] (.node .leaf 125217 [125251] .leaf)))))
/-- `chr(c).lower()` where it differs from `chr(c)` -/
def lowerMap : MTree := (.node (.node (.node (.node (.node lowerMap_0 210 [242] lowerMap_1) 323 [324] (.node lowerMap_2 407 [616] lowerMap_3)) 498 [499] (.node (.node lowerMap_4 588 [589] lowerMap_5) 994 [995] (.node lowerMap_6 1055 [1087] lowerMap_7))) 1182 [1183] (.node (.node (.node lowerMap_8 1272 [1273] lowerMap_9) 1346 [1394] (.node lowerMap_10 4280 [11544] lowerMap_11)) 5052 [43916] (.node (.node lowerMap_12 5097 [43961] lowerMap_13) 7344 [4336] (.node lowerMap_14 7742 [7743] lowerMap_15)))) 7838 [223] (.node (.node (.node (.node lowerMap_16 7928 [7929] lowerMap_17) 8041 [8033] (.node lowerMap_18 8168 [8160] lowerMap_19)) 9412 [9438] (.node (.node lowerMap_20 11297 [11345] lowerMap_21) 11422 [11423] (.node lowerMap_22 42574 [42575] lowerMap_23))) 42816 [42817] (.node (.node (.node lowerMap_24 42920 [42921] lowerMap_25) 65331 [65363] (.node lowerMap_26 66597 [66637] lowerMap_27)) 66933 [66972] (.node (.node lowerMap_28 68751 [68815] lowerMap_29) 71849 [71881] (.node lowerMap_30 93782 [93814] lowerMap_31)))))

def nfdMap_0 : MTree := (.node (.node (.node (.node (.node (.node .leaf 192 [65, 768] .leaf) 193 [65, 769] .leaf) 194 [65, 770] (.node .leaf 195 [65, 771] .leaf)) 196 [65, 776] (.node (.node .leaf 197 [65, 778] .leaf) 199 [67, 807] (.node .leaf 200 [69, 768] .leaf))) 201 [69, 769] (.node (.node (.node .leaf 202 [69, 770] .leaf) 203 [69, 776] (.node .leaf 204 [73, 768] .leaf)) 205 [73, 769] (.node (.node .leaf 206 [73, 770] .leaf) 207 [73, 776] (.node .leaf 209 [78, 771] .leaf)))) 210 [79, 768] (.node (.node (.node (.node .leaf 211 [79, 769] .leaf) 212 [79, 770] (.node .leaf 213 [79, 771] .leaf)) 214 [79, 776] (.node (.node .leaf 217 [85, 768] .leaf) 218 [85, 769] (.node .leaf 219 [85, 770] .leaf))) 220 [85, 776] (.node (.node (.node .leaf 221 [89, 769] .leaf) 224 [97, 768] (.node .leaf 225 [97, 769] .leaf)) 226 [97, 770] (.node (.node .leaf 227 [97, 771] .leaf) 228 [97, 776] (.node .leaf 229 [97, 778] .leaf)))))
def nfdMap_1 : MTree := (.node (.node (.node (.node (.node .leaf 232 [101, 768] .leaf) 233 [101, 769] (.node .leaf 234 [101, 770] .leaf)) 235 [101, 776] (.node (.node .leaf 236 [105, 768] .leaf) 237 [105, 769] (.node .leaf 238 [105, 770] .leaf))) 239 [105, 776] (.node (.node (.node .leaf 241 [110, 771] .leaf) 242 [111, 768] (.node .leaf 243 [111, 769] .leaf)) 244 [111, 770] (.node (.node .leaf 245 [111, 771] .leaf) 246 [111, 776] (.node .leaf 249 [117, 768] .leaf)))) 250 [117, 769] (.node (.node (.node (.node .leaf 251 [117, 770] .leaf) 252 [117, 776] (.node .leaf 253 [121, 769] .leaf)) 255 [121, 776] (.node (.node .leaf 256 [65, 772] .leaf) 257 [97, 772] (.node .leaf 258 [65, 774] .leaf))) 259 [97, 774] (.node (.node (.node .leaf 260 [65, 808] .leaf) 261 [97, 808] (.node .leaf 262 [67, 769] .leaf)) 263 [99, 769] (.node (.node .leaf 264 [67, 770] .leaf) 265 [99, 770] (.node .leaf 266 [67, 775] .leaf)))))
def nfdMap_2 : MTree := (.node (.node (.node (.node (.node .leaf 268 [67, 780] .leaf) 269 [99, 780] (.node .leaf 270 [68, 780] .leaf)) 271 [100, 780] (.node (.node .leaf 274 [69, 772] .leaf) 275 [101, 772] (.node .leaf 276 [69, 774] .leaf))) 277 [101, 774] (.node (.node (.node .leaf 278 [69, 775] .leaf) 279 [101, 775] (.node .leaf 280 [69, 808] .leaf)) 281 [101, 808] (.node (.node .leaf 282 [69, 780] .leaf) 283 [101, 780] (.node .leaf 284 [71, 770] .leaf)))) 285 [103, 770] (.node (.node (.node (.node .leaf 286 [71, 774] .leaf) 287 [103, 774] (.node .leaf 288 [71, 775] .leaf)) 289 [103, 775] (.node (.node .leaf 290 [71, 807] .leaf) 291 [103, 807] (.node .leaf 292 [72, 770] .leaf))) 293 [104, 770] (.node (.node (.node .leaf 296 [73, 771] .leaf) 297 [105, 771] (.node .leaf 298 [73, 772] .leaf)) 299 [105, 772] (.node (.node .leaf 300 [73, 774] .leaf) 301 [105, 774] (.node .leaf 302 [73, 808] .leaf)))))
def nfdMap_3 : MTree := (.node (.node (.node (.node (.node .leaf 304 [73, 775] .leaf) 308 [74, 770] (.node .leaf 309 [106, 770] .leaf)) 310 [75, 807] (.node (.node .leaf 311 [107, 807] .leaf) 313 [76, 769] (.node .leaf 314 [108, 769] .leaf))) 315 [76, 807] (.node (.node (.node .leaf 316 [108, 807] .leaf) 317 [76, 780] (.node .leaf 318 [108, 780] .leaf)) 323 [78, 769] (.node (.node .leaf 324 [110, 769] .leaf) 325 [78, 807] (.node .leaf 326 [110, 807] .leaf)))) 327 [78, 780] (.node (.node (.node (.node .leaf 328 [110, 780] .leaf) 332 [79, 772] (.node .leaf 333 [111, 772] .leaf)) 334 [79, 774] (.node (.node .leaf 335 [111, 774] .leaf) 336 [79, 779] (.node .leaf 337 [111, 779] .leaf))) 340 [82, 769] (.node (.node (.node .leaf 341 [114, 769] .leaf) 342 [82, 807] (.node .leaf 343 [114, 807] .leaf)) 344 [82, 780] (.node (.node .leaf 345 [114, 780] .leaf) 346 [83, 769] (.node .leaf 347 [115, 769] .leaf)))))
def nfdMap_4 : MTree := (.node (.node (.node (.node (.node (.node .leaf 349 [115, 770] .leaf) 350 [83, 807] .leaf) 351 [115, 807] (.node .leaf 352 [83, 780] .leaf)) 353 [115, 780] (.node (.node .leaf 354 [84, 807] .leaf) 355 [116, 807] (.node .leaf 356 [84, 780] .leaf))) 357 [116, 780] (.node (.node (.node .leaf 360 [85, 771] .leaf) 361 [117, 771] (.node .leaf 362 [85, 772] .leaf)) 363 [117, 772] (.node (.node .leaf 364 [85, 774] .leaf) 365 [117, 774] (.node .leaf 366 [85, 778] .leaf)))) 367 [117, 778] (.node (.node (.node (.node .leaf 368 [85, 779] .leaf) 369 [117, 779] (.node .leaf 370 [85, 808] .leaf)) 371 [117, 808] (.node (.node .leaf 372 [87, 770] .leaf) 373 [119, 770] (.node .leaf 374 [89, 770] .leaf))) 375 [121, 770] (.node (.node (.node .leaf 376 [89, 776] .leaf) 377 [90, 769] (.node .leaf 378 [122, 769] .leaf)) 379 [90, 775] (.node (.node .leaf 380 [122, 775] .leaf) 381 [90, 780] (.node .leaf 382 [122, 780] .leaf)))))
def nfdMap_5 : MTree := (.node (.node (.node (.node (.node .leaf 417 [111, 795] .leaf) 431 [85, 795] (.node .leaf 432 [117, 795] .leaf)) 461 [65, 780] (.node (.node .leaf 462 [97, 780] .leaf) 463 [73, 780] (.node .leaf 464 [105, 780] .leaf))) 465 [79, 780] (.node (.node (.node .leaf 466 [111, 780] .leaf) 467 [85, 780] (.node .leaf 468 [117, 780] .leaf)) 469 [85, 776, 772] (.node (.node .leaf 470 [117, 776, 772] .leaf) 471 [85, 776, 769] (.node .leaf 472 [117, 776, 769] .leaf)))) 473 [85, 776, 780] (.node (.node (.node (.node .leaf 474 [117, 776, 780] .leaf) 475 [85, 776, 768] (.node .leaf 476 [117, 776, 768] .leaf)) 478 [65, 776, 772] (.node (.node .leaf 479 [97, 776, 772] .leaf) 480 [65, 775, 772] (.node .leaf 481 [97, 775, 772] .leaf))) 482 [198, 772] (.node (.node (.node .leaf 483 [230, 772] .leaf) 486 [71, 780] (.node .leaf 487 [103, 780] .leaf)) 488 [75, 780] (.node (.node .leaf 489 [107, 780] .leaf) 490 [79, 808] (.node .leaf 491 [111, 808] .leaf)))))
def nfdMap_6 : MTree := (.node (.node (.node (.node (.node .leaf 493 [111, 808, 772] .leaf) 494 [439, 780] (.node .leaf 495 [658, 780] .leaf)) 496 [106, 780] (.node (.node .leaf 500 [71, 769] .leaf) 501 [103, 769] (.node .leaf 504 [78, 768] .leaf))) 505 [110, 768] (.node (.node (.node .leaf 506 [65, 778, 769] .leaf) 507 [97, 778, 769] (.node .leaf 508 [198, 769] .leaf)) 509 [230, 769] (.node (.node .leaf 510 [216, 769] .leaf) 511 [248, 769] (.node .leaf 512 [65, 783] .leaf)))) 513 [97, 783] (.node (.node (.node (.node .leaf 514 [65, 785] .leaf) 515 [97, 785] (.node .leaf 516 [69, 783] .leaf)) 517 [101, 783] (.node (.node .leaf 518 [69, 785] .leaf) 519 [101, 785] (.node .leaf 520 [73, 783] .leaf))) 521 [105, 783] (.node (.node (.node .leaf 522 [73, 785] .leaf) 523 [105, 785] (.node .leaf 524 [79, 783] .leaf)) 525 [111, 783] (.node (.node .leaf 526 [79, 785] .leaf) 527 [111, 785] (.node .leaf 528 [82, 783] .leaf)))))
def nfdMap_7 : MTree := (.node (.node (.node (.node (.node .leaf 530 [82, 785] .leaf) 531 [114, 785] (.node .leaf 532 [85, 783] .leaf)) 533 [117, 783] (.node (.node .leaf 534 [85, 785] .leaf) 535 [117, 785] (.node .leaf 536 [83, 806] .leaf))) 537 [115, 806] (.node (.node (.node .leaf 538 [84, 806] .leaf) 539 [116, 806] (.node .leaf 542 [72, 780] .leaf)) 543 [104, 780] (.node (.node .leaf 550 [65, 775] .leaf) 551 [97, 775] (.node .leaf 552 [69, 807] .leaf)))) 553 [101, 807] (.node (.node (.node (.node .leaf 554 [79, 776, 772] .leaf) 555 [111, 776, 772] (.node .leaf 556 [79, 771, 772] .leaf)) 557 [111, 771, 772] (.node (.node .leaf 558 [79, 775] .leaf) 559 [111, 775] (.node .leaf 560 [79, 775, 772] .leaf))) 561 [111, 775, 772] (.node (.node (.node .leaf 562 [89, 772] .leaf) 563 [121, 772] (.node .leaf 832 [768] .leaf)) 833 [769] (.node (.node .leaf 835 [787] .leaf) 836 [776, 769] (.node .leaf 884 [697] .leaf)))))
def nfdMap_8 : MTree := (.node (.node (.node (.node (.node (.node .leaf 901 [168, 769] .leaf) 902 [913, 769] .leaf) 903 [183] (.node .leaf 904 [917, 769] .leaf)) 905 [919, 769] (.node (.node .leaf 906 [921, 769] .leaf) 908 [927, 769] (.node .leaf 910 [933, 769] .leaf))) 911 [937, 769] (.node (.node (.node .leaf 912 [953, 776, 769] .leaf) 938 [921, 776] (.node .leaf 939 [933, 776] .leaf)) 940 [945, 769] (.node (.node .leaf 941 [949, 769] .leaf) 942 [951, 769] (.node .leaf 943 [953, 769] .leaf)))) 944 [965, 776, 769] (.node (.node (.node (.node .leaf 970 [953, 776] .leaf) 971 [965, 776] (.node .leaf 972 [959, 769] .leaf)) 973 [965, 769] (.node (.node .leaf 974 [969, 769] .leaf) 979 [978, 769] (.node .leaf 980 [978, 776] .leaf))) 1024 [1045, 768] (.node (.node (.node .leaf 1025 [1045, 776] .leaf) 1027 [1043, 769] (.node .leaf 1031 [1030, 776] .leaf)) 1036 [1050, 769] (.node (.node .leaf 1037 [1048, 768] .leaf) 1038 [1059, 774] (.node .leaf 1049 [1048, 774] .leaf)))))
def nfdMap_9 : MTree := (.node (.node (.node (.node (.node .leaf 1104 [1077, 768] .leaf) 1105 [1077, 776] (.node .leaf 1107 [1075, 769] .leaf)) 1111 [1110, 776] (.node (.node .leaf 1116 [1082, 769] .leaf) 1117 [1080, 768] (.node .leaf 1118 [1091, 774] .leaf))) 1142 [1140, 783] (.node (.node (.node .leaf 1143 [1141, 783] .leaf) 1217 [1046, 774] (.node .leaf 1218 [1078, 774] .leaf)) 1232 [1040, 774] (.node (.node .leaf 1233 [1072, 774] .leaf) 1234 [1040, 776] (.node .leaf 1235 [1072, 776] .leaf)))) 1238 [1045, 774] (.node (.node (.node (.node .leaf 1239 [1077, 774] .leaf) 1242 [1240, 776] (.node .leaf 1243 [1241, 776] .leaf)) 1244 [1046, 776] (.node (.node .leaf 1245 [1078, 776] .leaf) 1246 [1047, 776] (.node .leaf 1247 [1079, 776] .leaf))) 1250 [1048, 772] (.node (.node (.node .leaf 1251 [1080, 772] .leaf) 1252 [1048, 776] (.node .leaf 1253 [1080, 776] .leaf)) 1254 [1054, 776] (.node (.node .leaf 1255 [1086, 776] .leaf) 1258 [1256, 776] (.node .leaf 1259 [1257, 776] .leaf)))))
def nfdMap_10 : MTree := (.node (.node (.node (.node (.node .leaf 1261 [1101, 776] .leaf) 1262 [1059, 772] (.node .leaf 1263 [1091, 772] .leaf)) 1264 [1059, 776] (.node (.node .leaf 1265 [1091, 776] .leaf) 1266 [1059, 779] (.node .leaf 1267 [1091, 779] .leaf))) 1268 [1063, 776] (.node (.node (.node .leaf 1269 [1095, 776] .leaf) 1272 [1067, 776] (.node .leaf 1273 [1099, 776] .leaf)) 1570 [1575, 1619] (.node (.node .leaf 1571 [1575, 1620] .leaf) 1572 [1608, 1620] (.node .leaf 1573 [1575, 1621] .leaf)))) 1574 [1610, 1620] (.node (.node (.node (.node .leaf 1728 [1749, 1620] .leaf) 1730 [1729, 1620] (.node .leaf 1747 [1746, 1620] .leaf)) 2345 [2344, 2364] (.node (.node .leaf 2353 [2352, 2364] .leaf) 2356 [2355, 2364] (.node .leaf 2392 [2325, 2364] .leaf))) 2393 [2326, 2364] (.node (.node (.node .leaf 2394 [2327, 2364] .leaf) 2395 [2332, 2364] (.node .leaf 2396 [2337, 2364] .leaf)) 2397 [2338, 2364] (.node (.node .leaf 2398 [2347, 2364] .leaf) 2399 [2351, 2364] (.node .leaf 2507 [2503, 2494] .leaf)))))
def nfdMap_11 : MTree := (.node (.node (.node (.node (.node .leaf 2524 [2465, 2492] .leaf) 2525 [2466, 2492] (.node .leaf 2527 [2479, 2492] .leaf)) 2611 [2610, 2620] (.node (.node .leaf 2614 [2616, 2620] .leaf) 2649 [2582, 2620] (.node .leaf 2650 [2583, 2620] .leaf))) 2651 [2588, 2620] (.node (.node (.node .leaf 2654 [2603, 2620] .leaf) 2888 [2887, 2902] (.node .leaf 2891 [2887, 2878] .leaf)) 2892 [2887, 2903] (.node (.node .leaf 2908 [2849, 2876] .leaf) 2909 [2850, 2876] (.node .leaf 2964 [2962, 3031] .leaf)))) 3018 [3014, 3006] (.node (.node (.node (.node .leaf 3019 [3015, 3006] .leaf) 3020 [3014, 3031] (.node .leaf 3144 [3142, 3158] .leaf)) 3264 [3263, 3285] (.node (.node .leaf 3271 [3270, 3285] .leaf) 3272 [3270, 3286] (.node .leaf 3274 [3270, 3266] .leaf))) 3275 [3270, 3266, 3285] (.node (.node (.node .leaf 3402 [3398, 3390] .leaf) 3403 [3399, 3390] (.node .leaf 3404 [3398, 3415] .leaf)) 3546 [3545, 3530] (.node (.node .leaf 3548 [3545, 3535] .leaf) 3549 [3545, 3535, 3530] (.node .leaf 3550 [3545, 3551] .leaf)))))
def nfdMap_12 : MTree := (.node (.node (.node (.node (.node (.node .leaf 3917 [3916, 4023] .leaf) 3922 [3921, 4023] .leaf) 3927 [3926, 4023] (.node .leaf 3932 [3931, 4023] .leaf)) 3945 [3904, 4021] (.node (.node .leaf 3955 [3953, 3954] .leaf) 3957 [3953, 3956] (.node .leaf 3958 [4018, 3968] .leaf))) 3960 [4019, 3968] (.node (.node (.node .leaf 3969 [3953, 3968] .leaf) 3987 [3986, 4023] (.node .leaf 3997 [3996, 4023] .leaf)) 4002 [4001, 4023] (.node (.node .leaf 4007 [4006, 4023] .leaf) 4012 [4011, 4023] (.node .leaf 4025 [3984, 4021] .leaf)))) 4134 [4133, 4142] (.node (.node (.node (.node .leaf 6918 [6917, 6965] .leaf) 6920 [6919, 6965] (.node .leaf 6922 [6921, 6965] .leaf)) 6924 [6923, 6965] (.node (.node .leaf 6926 [6925, 6965] .leaf) 6930 [6929, 6965] (.node .leaf 6971 [6970, 6965] .leaf))) 6973 [6972, 6965] (.node (.node (.node .leaf 6976 [6974, 6965] .leaf) 6977 [6975, 6965] (.node .leaf 6979 [6978, 6965] .leaf)) 7680 [65, 805] (.node (.node .leaf 7681 [97, 805] .leaf) 7682 [66, 775] (.node .leaf 7683 [98, 775] .leaf)))))
def nfdMap_13 : MTree := (.node (.node (.node (.node (.node .leaf 7685 [98, 803] .leaf) 7686 [66, 817] (.node .leaf 7687 [98, 817] .leaf)) 7688 [67, 807, 769] (.node (.node .leaf 7689 [99, 807, 769] .leaf) 7690 [68, 775] (.node .leaf 7691 [100, 775] .leaf))) 7692 [68, 803] (.node (.node (.node .leaf 7693 [100, 803] .leaf) 7694 [68, 817] (.node .leaf 7695 [100, 817] .leaf)) 7696 [68, 807] (.node (.node .leaf 7697 [100, 807] .leaf) 7698 [68, 813] (.node .leaf 7699 [100, 813] .leaf)))) 7700 [69, 772, 768] (.node (.node (.node (.node .leaf 7701 [101, 772, 768] .leaf) 7702 [69, 772, 769] (.node .leaf 7703 [101, 772, 769] .leaf)) 7704 [69, 813] (.node (.node .leaf 7705 [101, 813] .leaf) 7706 [69, 816] (.node .leaf 7707 [101, 816] .leaf))) 7708 [69, 807, 774] (.node (.node (.node .leaf 7709 [101, 807, 774] .leaf) 7710 [70, 775] (.node .leaf 7711 [102, 775] .leaf)) 7712 [71, 772] (.node (.node .leaf 7713 [103, 772] .leaf) 7714 [72, 775] (.node .leaf 7715 [104, 775] .leaf)))))
def nfdMap_14 : MTree := (.node (.node (.node (.node (.node .leaf 7717 [104, 803] .leaf) 7718 [72, 776] (.node .leaf 7719 [104, 776] .leaf)) 7720 [72, 807] (.node (.node .leaf 7721 [104, 807] .leaf) 7722 [72, 814] (.node .leaf 7723 [104, 814] .leaf))) 7724 [73, 816] (.node (.node (.node .leaf 7725 [105, 816] .leaf) 7726 [73, 776, 769] (.node .leaf 7727 [105, 776, 769] .leaf)) 7728 [75, 769] (.node (.node .leaf 7729 [107, 769] .leaf) 7730 [75, 803] (.node .leaf 7731 [107, 803] .leaf)))) 7732 [75, 817] (.node (.node (.node (.node .leaf 7733 [107, 817] .leaf) 7734 [76, 803] (.node .leaf 7735 [108, 803] .leaf)) 7736 [76, 803, 772] (.node (.node .leaf 7737 [108, 803, 772] .leaf) 7738 [76, 817] (.node .leaf 7739 [108, 817] .leaf))) 7740 [76, 813] (.node (.node (.node .leaf 7741 [108, 813] .leaf) 7742 [77, 769] (.node .leaf 7743 [109, 769] .leaf)) 7744 [77, 775] (.node (.node .leaf 7745 [109, 775] .leaf) 7746 [77, 803] (.node .leaf 7747 [109, 803] .leaf)))))
def nfdMap_15 : MTree := (.node (.node (.node (.node (.node .leaf 7749 [110, 775] .leaf) 7750 [78, 803] (.node .leaf 7751 [110, 803] .leaf)) 7752 [78, 817] (.node (.node .leaf 7753 [110, 817] .leaf) 7754 [78, 813] (.node .leaf 7755 [110, 813] .leaf))) 7756 [79, 771, 769] (.node (.node (.node .leaf 7757 [111, 771, 769] .leaf) 7758 [79, 771, 776] (.node .leaf 7759 [111, 771, 776] .leaf)) 7760 [79, 772, 768] (.node (.node .leaf 7761 [111, 772, 768] .leaf) 7762 [79, 772, 769] (.node .leaf 7763 [111, 772, 769] .leaf)))) 7764 [80, 769] (.node (.node (.node (.node .leaf 7765 [112, 769] .leaf) 7766 [80, 775] (.node .leaf 7767 [112, 775] .leaf)) 7768 [82, 775] (.node (.node .leaf 7769 [114, 775] .leaf) 7770 [82, 803] (.node .leaf 7771 [114, 803] .leaf))) 7772 [82, 803, 772] (.node (.node (.node .leaf 7773 [114, 803, 772] .leaf) 7774 [82, 817] (.node .leaf 7775 [114, 817] .leaf)) 7776 [83, 775] (.node (.node .leaf 7777 [115, 775] .leaf) 7778 [83, 803] (.node .leaf 7779 [115, 803] .leaf)))))
def nfdMap_16 : MTree := (.node (.node (.node (.node (.node (.node .leaf 7781 [115, 769, 775] .leaf) 7782 [83, 780, 775] .leaf) 7783 [115, 780, 775] (.node .leaf 7784 [83, 803, 775] .leaf)) 7785 [115, 803, 775] (.node (.node .leaf 7786 [84, 775] .leaf) 7787 [116, 775] (.node .leaf 7788 [84, 803] .leaf))) 7789 [116, 803] (.node (.node (.node .leaf 7790 [84, 817] .leaf) 7791 [116, 817] (.node .leaf 7792 [84, 813] .leaf)) 7793 [116, 813] (.node (.node .leaf 7794 [85, 804] .leaf) 7795 [117, 804] (.node .leaf 7796 [85, 816] .leaf)))) 7797 [117, 816] (.node (.node (.node (.node .leaf 7798 [85, 813] .leaf) 7799 [117, 813] (.node .leaf 7800 [85, 771, 769] .leaf)) 7801 [117, 771, 769] (.node (.node .leaf 7802 [85, 772, 776] .leaf) 7803 [117, 772, 776] (.node .leaf 7804 [86, 771] .leaf))) 7805 [118, 771] (.node (.node (.node .leaf 7806 [86, 803] .leaf) 7807 [118, 803] (.node .leaf 7808 [87, 768] .leaf)) 7809 [119, 768] (.node (.node .leaf 7810 [87, 769] .leaf) 7811 [119, 769] (.node .leaf 7812 [87, 776] .leaf)))))
def nfdMap_17 : MTree := (.node (.node (.node (.node (.node .leaf 7814 [87, 775] .leaf) 7815 [119, 775] (.node .leaf 7816 [87, 803] .leaf)) 7817 [119, 803] (.node (.node .leaf 7818 [88, 775] .leaf) 7819 [120, 775] (.node .leaf 7820 [88, 776] .leaf))) 7821 [120, 776] (.node (.node (.node .leaf 7822 [89, 775] .leaf) 7823 [121, 775] (.node .leaf 7824 [90, 770] .leaf)) 7825 [122, 770] (.node (.node .leaf 7826 [90, 803] .leaf) 7827 [122, 803] (.node .leaf 7828 [90, 817] .leaf)))) 7829 [122, 817] (.node (.node (.node (.node .leaf 7830 [104, 817] .leaf) 7831 [116, 776] (.node .leaf 7832 [119, 778] .leaf)) 7833 [121, 778] (.node (.node .leaf 7835 [383, 775] .leaf) 7840 [65, 803] (.node .leaf 7841 [97, 803] .leaf))) 7842 [65, 777] (.node (.node (.node .leaf 7843 [97, 777] .leaf) 7844 [65, 770, 769] (.node .leaf 7845 [97, 770, 769] .leaf)) 7846 [65, 770, 768] (.node (.node .leaf 7847 [97, 770, 768] .leaf) 7848 [65, 770, 777] (.node .leaf 7849 [97, 770, 777] .leaf)))))
def nfdMap_18 : MTree := (.node (.node (.node (.node (.node .leaf 7851 [97, 770, 771] .leaf) 7852 [65, 803, 770] (.node .leaf 7853 [97, 803, 770] .leaf)) 7854 [65, 774, 769] (.node (.node .leaf 7855 [97, 774, 769] .leaf) 7856 [65, 774, 768] (.node .leaf 7857 [97, 774, 768] .leaf))) 7858 [65, 774, 777] (.node (.node (.node .leaf 7859 [97, 774, 777] .leaf) 7860 [65, 774, 771] (.node .leaf 7861 [97, 774, 771] .leaf)) 7862 [65, 803, 774] (.node (.node .leaf 7863 [97, 803, 774] .leaf) 7864 [69, 803] (.node .leaf 7865 [101, 803] .leaf)))) 7866 [69, 777] (.node (.node (.node (.node .leaf 7867 [101, 777] .leaf) 7868 [69, 771] (.node .leaf 7869 [101, 771] .leaf)) 7870 [69, 770, 769] (.node (.node .leaf 7871 [101, 770, 769] .leaf) 7872 [69, 770, 768] (.node .leaf 7873 [101, 770, 768] .leaf))) 7874 [69, 770, 777] (.node (.node (.node .leaf 7875 [101, 770, 777] .leaf) 7876 [69, 770, 771] (.node .leaf 7877 [101, 770, 771] .leaf)) 7878 [69, 803, 770] (.node (.node .leaf 7879 [101, 803, 770] .leaf) 7880 [73, 777] (.node .leaf 7881 [105, 777] .leaf)))))
def nfdMap_19 : MTree := (.node (.node (.node (.node (.node .leaf 7883 [105, 803] .leaf) 7884 [79, 803] (.node .leaf 7885 [111, 803] .leaf)) 7886 [79, 777] (.node (.node .leaf 7887 [111, 777] .leaf) 7888 [79, 770, 769] (.node .leaf 7889 [111, 770, 769] .leaf))) 7890 [79, 770, 768] (.node (.node (.node .leaf 7891 [111, 770, 768] .leaf) 7892 [79, 770, 777] (.node .leaf 7893 [111, 770, 777] .leaf)) 7894 [79, 770, 771] (.node (.node .leaf 7895 [111, 770, 771] .leaf) 7896 [79, 803, 770] (.node .leaf 7897 [111, 803, 770] .leaf)))) 7898 [79, 795, 769] (.node (.node (.node (.node .leaf 7899 [111, 795, 769] .leaf) 7900 [79, 795, 768] (.node .leaf 7901 [111, 795, 768] .leaf)) 7902 [79, 795, 777] (.node (.node .leaf 7903 [111, 795, 777] .leaf) 7904 [79, 795, 771] (.node .leaf 7905 [111, 795, 771] .leaf))) 7906 [79, 795, 803] (.node (.node (.node .leaf 7907 [111, 795, 803] .leaf) 7908 [85, 803] (.node .leaf 7909 [117, 803] .leaf)) 7910 [85, 777] (.node (.node .leaf 7911 [117, 777] .leaf) 7912 [85, 795, 769] (.node .leaf 7913 [117, 795, 769] .leaf)))))
def nfdMap_20 : MTree := (.node (.node (.node (.node (.node (.node .leaf 7915 [117, 795, 768] .leaf) 7916 [85, 795, 777] .leaf) 7917 [117, 795, 777] (.node .leaf 7918 [85, 795, 771] .leaf)) 7919 [117, 795, 771] (.node (.node .leaf 7920 [85, 795, 803] .leaf) 7921 [117, 795, 803] (.node .leaf 7922 [89, 768] .leaf))) 7923 [121, 768] (.node (.node (.node .leaf 7924 [89, 803] .leaf) 7925 [121, 803] (.node .leaf 7926 [89, 777] .leaf)) 7927 [121, 777] (.node (.node .leaf 7928 [89, 771] .leaf) 7929 [121, 771] (.node .leaf 7936 [945, 787] .leaf)))) 7937 [945, 788] (.node (.node (.node (.node .leaf 7938 [945, 787, 768] .leaf) 7939 [945, 788, 768] (.node .leaf 7940 [945, 787, 769] .leaf)) 7941 [945, 788, 769] (.node (.node .leaf 7942 [945, 787, 834] .leaf) 7943 [945, 788, 834] (.node .leaf 7944 [913, 787] .leaf))) 7945 [913, 788] (.node (.node (.node .leaf 7946 [913, 787, 768] .leaf) 7947 [913, 788, 768] (.node .leaf 7948 [913, 787, 769] .leaf)) 7949 [913, 788, 769] (.node (.node .leaf 7950 [913, 787, 834] .leaf) 7951 [913, 788, 834] (.node .leaf 7952 [949, 787] .leaf)))))
def nfdMap_21 : MTree := (.node (.node (.node (.node (.node .leaf 7954 [949, 787, 768] .leaf) 7955 [949, 788, 768] (.node .leaf 7956 [949, 787, 769] .leaf)) 7957 [949, 788, 769] (.node (.node .leaf 7960 [917, 787] .leaf) 7961 [917, 788] (.node .leaf 7962 [917, 787, 768] .leaf))) 7963 [917, 788, 768] (.node (.node (.node .leaf 7964 [917, 787, 769] .leaf) 7965 [917, 788, 769] (.node .leaf 7968 [951, 787] .leaf)) 7969 [951, 788] (.node (.node .leaf 7970 [951, 787, 768] .leaf) 7971 [951, 788, 768] (.node .leaf 7972 [951, 787, 769] .leaf)))) 7973 [951, 788, 769] (.node (.node (.node (.node .leaf 7974 [951, 787, 834] .leaf) 7975 [951, 788, 834] (.node .leaf 7976 [919, 787] .leaf)) 7977 [919, 788] (.node (.node .leaf 7978 [919, 787, 768] .leaf) 7979 [919, 788, 768] (.node .leaf 7980 [919, 787, 769] .leaf))) 7981 [919, 788, 769] (.node (.node (.node .leaf 7982 [919, 787, 834] .leaf) 7983 [919, 788, 834] (.node .leaf 7984 [953, 787] .leaf)) 7985 [953, 788] (.node (.node .leaf 7986 [953, 787, 768] .leaf) 7987 [953, 788, 768] (.node .leaf 7988 [953, 787, 769] .leaf)))))
def nfdMap_22 : MTree := (.node (.node (.node (.node (.node .leaf 7990 [953, 787, 834] .leaf) 7991 [953, 788, 834] (.node .leaf 7992 [921, 787] .leaf)) 7993 [921, 788] (.node (.node .leaf 7994 [921, 787, 768] .leaf) 7995 [921, 788, 768] (.node .leaf 7996 [921, 787, 769] .leaf))) 7997 [921, 788, 769] (.node (.node (.node .leaf 7998 [921, 787, 834] .leaf) 7999 [921, 788, 834] (.node .leaf 8000 [959, 787] .leaf)) 8001 [959, 788] (.node (.node .leaf 8002 [959, 787, 768] .leaf) 8003 [959, 788, 768] (.node .leaf 8004 [959, 787, 769] .leaf)))) 8005 [959, 788, 769] (.node (.node (.node (.node .leaf 8008 [927, 787] .leaf) 8009 [927, 788] (.node .leaf 8010 [927, 787, 768] .leaf)) 8011 [927, 788, 768] (.node (.node .leaf 8012 [927, 787, 769] .leaf) 8013 [927, 788, 769] (.node .leaf 8016 [965, 787] .leaf))) 8017 [965, 788] (.node (.node (.node .leaf 8018 [965, 787, 768] .leaf) 8019 [965, 788, 768] (.node .leaf 8020 [965, 787, 769] .leaf)) 8021 [965, 788, 769] (.node (.node .leaf 8022 [965, 787, 834] .leaf) 8023 [965, 788, 834] (.node .leaf 8025 [933, 788] .leaf)))))
def nfdMap_23 : MTree := (.node (.node (.node (.node (.node .leaf 8029 [933, 788, 769] .leaf) 8031 [933, 788, 834] (.node .leaf 8032 [969, 787] .leaf)) 8033 [969, 788] (.node (.node .leaf 8034 [969, 787, 768] .leaf) 8035 [969, 788, 768] (.node .leaf 8036 [969, 787, 769] .leaf))) 8037 [969, 788, 769] (.node (.node (.node .leaf 8038 [969, 787, 834] .leaf) 8039 [969, 788, 834] (.node .leaf 8040 [937, 787] .leaf)) 8041 [937, 788] (.node (.node .leaf 8042 [937, 787, 768] .leaf) 8043 [937, 788, 768] (.node .leaf 8044 [937, 787, 769] .leaf)))) 8045 [937, 788, 769] (.node (.node (.node (.node .leaf 8046 [937, 787, 834] .leaf) 8047 [937, 788, 834] (.node .leaf 8048 [945, 768] .leaf)) 8049 [945, 769] (.node (.node .leaf 8050 [949, 768] .leaf) 8051 [949, 769] (.node .leaf 8052 [951, 768] .leaf))) 8053 [951, 769] (.node (.node (.node .leaf 8054 [953, 768] .leaf) 8055 [953, 769] (.node .leaf 8056 [959, 768] .leaf)) 8057 [959, 769] (.node (.node .leaf 8058 [965, 768] .leaf) 8059 [965, 769] (.node .leaf 8060 [969, 768] .leaf)))))
def nfdMap_24 : MTree := (.node (.node (.node (.node (.node (.node .leaf 8064 [945, 787, 837] .leaf) 8065 [945, 788, 837] .leaf) 8066 [945, 787, 768, 837] (.node .leaf 8067 [945, 788, 768, 837] .leaf)) 8068 [945, 787, 769, 837] (.node (.node .leaf 8069 [945, 788, 769, 837] .leaf) 8070 [945, 787, 834, 837] (.node .leaf 8071 [945, 788, 834, 837] .leaf))) 8072 [913, 787, 837] (.node (.node (.node .leaf 8073 [913, 788, 837] .leaf) 8074 [913, 787, 768, 837] (.node .leaf 8075 [913, 788, 768, 837] .leaf)) 8076 [913, 787, 769, 837] (.node (.node .leaf 8077 [913, 788, 769, 837] .leaf) 8078 [913, 787, 834, 837] (.node .leaf 8079 [913, 788, 834, 837] .leaf)))) 8080 [951, 787, 837] (.node (.node (.node (.node .leaf 8081 [951, 788, 837] .leaf) 8082 [951, 787, 768, 837] (.node .leaf 8083 [951, 788, 768, 837] .leaf)) 8084 [951, 787, 769, 837] (.node (.node .leaf 8085 [951, 788, 769, 837] .leaf) 8086 [951, 787, 834, 837] (.node .leaf 8087 [951, 788, 834, 837] .leaf))) 8088 [919, 787, 837] (.node (.node (.node .leaf 8089 [919, 788, 837] .leaf) 8090 [919, 787, 768, 837] (.node .leaf 8091 [919, 788, 768, 837] .leaf)) 8092 [919, 787, 769, 837] (.node (.node .leaf 8093 [919, 788, 769, 837] .leaf) 8094 [919, 787, 834, 837] (.node .leaf 8095 [919, 788, 834, 837] .leaf)))))
def nfdMap_25 : MTree := (.node (.node (.node (.node (.node .leaf 8097 [969, 788, 837] .leaf) 8098 [969, 787, 768, 837] (.node .leaf 8099 [969, 788, 768, 837] .leaf)) 8100 [969, 787, 769, 837] (.node (.node .leaf 8101 [969, 788, 769, 837] .leaf) 8102 [969, 787, 834, 837] (.node .leaf 8103 [969, 788, 834, 837] .leaf))) 8104 [937, 787, 837] (.node (.node (.node .leaf 8105 [937, 788, 837] .leaf) 8106 [937, 787, 768, 837] (.node .leaf 8107 [937, 788, 768, 837] .leaf)) 8108 [937, 787, 769, 837] (.node (.node .leaf 8109 [937, 788, 769, 837] .leaf) 8110 [937, 787, 834, 837] (.node .leaf 8111 [937, 788, 834, 837] .leaf)))) 8112 [945, 774] (.node (.node (.node (.node .leaf 8113 [945, 772] .leaf) 8114 [945, 768, 837] (.node .leaf 8115 [945, 837] .leaf)) 8116 [945, 769, 837] (.node (.node .leaf 8118 [945, 834] .leaf) 8119 [945, 834, 837] (.node .leaf 8120 [913, 774] .leaf))) 8121 [913, 772] (.node (.node (.node .leaf 8122 [913, 768] .leaf) 8123 [913, 769] (.node .leaf 8124 [913, 837] .leaf)) 8126 [953] (.node (.node .leaf 8129 [168, 834] .leaf) 8130 [951, 768, 837] (.node .leaf 8131 [951, 837] .leaf)))))
def nfdMap_26 : MTree := (.node (.node (.node (.node (.node .leaf 8134 [951, 834] .leaf) 8135 [951, 834, 837] (.node .leaf 8136 [917, 768] .leaf)) 8137 [917, 769] (.node (.node .leaf 8138 [919, 768] .leaf) 8139 [919, 769] (.node .leaf 8140 [919, 837] .leaf))) 8141 [8127, 768] (.node (.node (.node .leaf 8142 [8127, 769] .leaf) 8143 [8127, 834] (.node .leaf 8144 [953, 774] .leaf)) 8145 [953, 772] (.node (.node .leaf 8146 [953, 776, 768] .leaf) 8147 [953, 776, 769] (.node .leaf 8150 [953, 834] .leaf)))) 8151 [953, 776, 834] (.node (.node (.node (.node .leaf 8152 [921, 774] .leaf) 8153 [921, 772] (.node .leaf 8154 [921, 768] .leaf)) 8155 [921, 769] (.node (.node .leaf 8157 [8190, 768] .leaf) 8158 [8190, 769] (.node .leaf 8159 [8190, 834] .leaf))) 8160 [965, 774] (.node (.node (.node .leaf 8161 [965, 772] .leaf) 8162 [965, 776, 768] (.node .leaf 8163 [965, 776, 769] .leaf)) 8164 [961, 787] (.node (.node .leaf 8165 [961, 788] .leaf) 8166 [965, 834] (.node .leaf 8167 [965, 776, 834] .leaf)))))
def nfdMap_27 : MTree := (.node (.node (.node (.node (.node .leaf 8169 [933, 772] .leaf) 8170 [933, 768] (.node .leaf 8171 [933, 769] .leaf)) 8172 [929, 788] (.node (.node .leaf 8173 [168, 768] .leaf) 8174 [168, 769] (.node .leaf 8175 [96] .leaf))) 8178 [969, 768, 837] (.node (.node (.node .leaf 8179 [969, 837] .leaf) 8180 [969, 769, 837] (.node .leaf 8182 [969, 834] .leaf)) 8183 [969, 834, 837] (.node (.node .leaf 8184 [927, 768] .leaf) 8185 [927, 769] (.node .leaf 8186 [937, 768] .leaf)))) 8187 [937, 769] (.node (.node (.node (.node .leaf 8188 [937, 837] .leaf) 8189 [180] (.node .leaf 8192 [8194] .leaf)) 8193 [8195] (.node (.node .leaf 8486 [937] .leaf) 8490 [75] (.node .leaf 8491 [65, 778] .leaf))) 8602 [8592, 824] (.node (.node (.node .leaf 8603 [8594, 824] .leaf) 8622 [8596, 824] (.node .leaf 8653 [8656, 824] .leaf)) 8654 [8660, 824] (.node (.node .leaf 8655 [8658, 824] .leaf) 8708 [8707, 824] (.node .leaf 8713 [8712, 824] .leaf)))))
def nfdMap_28 : MTree := (.node (.node (.node (.node (.node .leaf 8740 [8739, 824] .leaf) 8742 [8741, 824] (.node .leaf 8769 [8764, 824] .leaf)) 8772 [8771, 824] (.node (.node .leaf 8775 [8773, 824] .leaf) 8777 [8776, 824] (.node .leaf 8800 [61, 824] .leaf))) 8802 [8801, 824] (.node (.node (.node .leaf 8813 [8781, 824] .leaf) 8814 [60, 824] (.node .leaf 8815 [62, 824] .leaf)) 8816 [8804, 824] (.node (.node .leaf 8817 [8805, 824] .leaf) 8820 [8818, 824] (.node .leaf 8821 [8819, 824] .leaf)))) 8824 [8822, 824] (.node (.node (.node (.node .leaf 8825 [8823, 824] .leaf) 8832 [8826, 824] (.node .leaf 8833 [8827, 824] .leaf)) 8836 [8834, 824] (.node (.node .leaf 8837 [8835, 824] .leaf) 8840 [8838, 824] (.node .leaf 8841 [8839, 824] .leaf))) 8876 [8866, 824] (.node (.node (.node .leaf 8877 [8872, 824] .leaf) 8878 [8873, 824] (.node .leaf 8879 [8875, 824] .leaf)) 8928 [8828, 824] (.node (.node .leaf 8929 [8829, 824] .leaf) 8930 [8849, 824] (.node .leaf 8931 [8850, 824] .leaf)))))
def nfdMap_29 : MTree := (.node (.node (.node (.node (.node .leaf 8939 [8883, 824] .leaf) 8940 [8884, 824] (.node .leaf 8941 [8885, 824] .leaf)) 9001 [12296] (.node (.node .leaf 9002 [12297] .leaf) 10972 [10973, 824] (.node .leaf 12364 [12363, 12441] .leaf))) 12366 [12365, 12441] (.node (.node (.node .leaf 12368 [12367, 12441] .leaf) 12370 [12369, 12441] (.node .leaf 12372 [12371, 12441] .leaf)) 12374 [12373, 12441] (.node (.node .leaf 12376 [12375, 12441] .leaf) 12378 [12377, 12441] (.node .leaf 12380 [12379, 12441] .leaf)))) 12382 [12381, 12441] (.node (.node (.node (.node .leaf 12384 [12383, 12441] .leaf) 12386 [12385, 12441] (.node .leaf 12389 [12388, 12441] .leaf)) 12391 [12390, 12441] (.node (.node .leaf 12393 [12392, 12441] .leaf) 12400 [12399, 12441] (.node .leaf 12401 [12399, 12442] .leaf))) 12403 [12402, 12441] (.node (.node (.node .leaf 12404 [12402, 12442] .leaf) 12406 [12405, 12441] (.node .leaf 12407 [12405, 12442] .leaf)) 12409 [12408, 12441] (.node (.node .leaf 12410 [12408, 12442] .leaf) 12412 [12411, 12441] (.node .leaf 12413 [12411, 12442] .leaf)))))
def nfdMap_30 : MTree := (.node (.node (.node (.node (.node .leaf 12446 [12445, 12441] .leaf) 12460 [12459, 12441] (.node .leaf 12462 [12461, 12441] .leaf)) 12464 [12463, 12441] (.node (.node .leaf 12466 [12465, 12441] .leaf) 12468 [12467, 12441] (.node .leaf 12470 [12469, 12441] .leaf))) 12472 [12471, 12441] (.node (.node (.node .leaf 12474 [12473, 12441] .leaf) 12476 [12475, 12441] (.node .leaf 12478 [12477, 12441] .leaf)) 12480 [12479, 12441] (.node (.node .leaf 12482 [12481, 12441] .leaf) 12485 [12484, 12441] (.node .leaf 12487 [12486, 12441] .leaf)))) 12489 [12488, 12441] (.node (.node (.node (.node .leaf 12496 [12495, 12441] .leaf) 12497 [12495, 12442] (.node .leaf 12499 [12498, 12441] .leaf)) 12500 [12498, 12442] (.node (.node .leaf 12502 [12501, 12441] .leaf) 12503 [12501, 12442] (.node .leaf 12505 [12504, 12441] .leaf))) 12506 [12504, 12442] (.node (.node (.node .leaf 12508 [12507, 12441] .leaf) 12509 [12507, 12442] (.node .leaf 12532 [12454, 12441] .leaf)) 12535 [12527, 12441] (.node (.node .leaf 12536 [12528, 12441] .leaf) 12537 [12529, 12441] (.node .leaf 12538 [12530, 12441] .leaf)))))
def nfdMap_31 : MTree := (.node (.node (.node (.node (.node .leaf 63744 [35912] .leaf) 63745 [26356] (.node .leaf 63746 [36554] .leaf)) 63747 [36040] (.node (.node .leaf 63748 [28369] .leaf) 63749 [20018] (.node .leaf 63750 [21477] .leaf))) 63751 [40860] (.node (.node (.node .leaf 63752 [40860] .leaf) 63753 [22865] (.node .leaf 63754 [37329] .leaf)) 63755 [21895] (.node (.node .leaf 63756 [22856] .leaf) 63757 [25078] (.node .leaf 63758 [30313] .leaf)))) 63759 [32645] (.node (.node (.node (.node .leaf 63760 [34367] .leaf) 63761 [34746] (.node .leaf 63762 [35064] .leaf)) 63763 [37007] (.node (.node .leaf 63764 [27138] .leaf) 63765 [27931] (.node .leaf 63766 [28889] .leaf))) 63767 [29662] (.node (.node (.node .leaf 63768 [33853] .leaf) 63769 [37226] (.node .leaf 63770 [39409] .leaf)) 63771 [20098] (.node (.node .leaf 63772 [21365] .leaf) 63773 [27396] (.node .leaf 63774 [29211] .leaf)))))
def nfdMap_32 : MTree := (.node (.node (.node (.node (.node (.node .leaf 63776 [40478] .leaf) 63777 [23888] .leaf) 63778 [28651] (.node .leaf 63779 [34253] .leaf)) 63780 [35172] (.node (.node .leaf 63781 [25289] .leaf) 63782 [33240] (.node .leaf 63783 [34847] .leaf))) 63784 [24266] (.node (.node (.node .leaf 63785 [26391] .leaf) 63786 [28010] (.node .leaf 63787 [29436] .leaf)) 63788 [37070] (.node (.node .leaf 63789 [20358] .leaf) 63790 [20919] (.node .leaf 63791 [21214] .leaf)))) 63792 [25796] (.node (.node (.node (.node .leaf 63793 [27347] .leaf) 63794 [29200] (.node .leaf 63795 [30439] .leaf)) 63796 [32769] (.node (.node .leaf 63797 [34310] .leaf) 63798 [34396] (.node .leaf 63799 [36335] .leaf))) 63800 [38706] (.node (.node (.node .leaf 63801 [39791] .leaf) 63802 [40442] (.node .leaf 63803 [30860] .leaf)) 63804 [31103] (.node (.node .leaf 63805 [32160] .leaf) 63806 [33737] (.node .leaf 63807 [37636] .leaf)))))
def nfdMap_33 : MTree := (.node (.node (.node (.node (.node .leaf 63809 [35542] .leaf) 63810 [22751] (.node .leaf 63811 [24324] .leaf)) 63812 [31840] (.node (.node .leaf 63813 [32894] .leaf) 63814 [29282] (.node .leaf 63815 [30922] .leaf))) 63816 [36034] (.node (.node (.node .leaf 63817 [38647] .leaf) 63818 [22744] (.node .leaf 63819 [23650] .leaf)) 63820 [27155] (.node (.node .leaf 63821 [28122] .leaf) 63822 [28431] (.node .leaf 63823 [32047] .leaf)))) 63824 [32311] (.node (.node (.node (.node .leaf 63825 [38475] .leaf) 63826 [21202] (.node .leaf 63827 [32907] .leaf)) 63828 [20956] (.node (.node .leaf 63829 [20940] .leaf) 63830 [31260] (.node .leaf 63831 [32190] .leaf))) 63832 [33777] (.node (.node (.node .leaf 63833 [38517] .leaf) 63834 [35712] (.node .leaf 63835 [25295] .leaf)) 63836 [27138] (.node (.node .leaf 63837 [35582] .leaf) 63838 [20025] (.node .leaf 63839 [23527] .leaf)))))
def nfdMap_34 : MTree := (.node (.node (.node (.node (.node .leaf 63841 [29575] .leaf) 63842 [30064] (.node .leaf 63843 [21271] .leaf)) 63844 [30971] (.node (.node .leaf 63845 [20415] .leaf) 63846 [24489] (.node .leaf 63847 [19981] .leaf))) 63848 [27852] (.node (.node (.node .leaf 63849 [25976] .leaf) 63850 [32034] (.node .leaf 63851 [21443] .leaf)) 63852 [22622] (.node (.node .leaf 63853 [30465] .leaf) 63854 [33865] (.node .leaf 63855 [35498] .leaf)))) 63856 [27578] (.node (.node (.node (.node .leaf 63857 [36784] .leaf) 63858 [27784] (.node .leaf 63859 [25342] .leaf)) 63860 [33509] (.node (.node .leaf 63861 [25504] .leaf) 63862 [30053] (.node .leaf 63863 [20142] .leaf))) 63864 [20841] (.node (.node (.node .leaf 63865 [20937] .leaf) 63866 [26753] (.node .leaf 63867 [31975] .leaf)) 63868 [33391] (.node (.node .leaf 63869 [35538] .leaf) 63870 [37327] (.node .leaf 63871 [21237] .leaf)))))
def nfdMap_35 : MTree := (.node (.node (.node (.node (.node .leaf 63873 [22899] .leaf) 63874 [24300] (.node .leaf 63875 [26053] .leaf)) 63876 [28670] (.node (.node .leaf 63877 [31018] .leaf) 63878 [38317] (.node .leaf 63879 [39530] .leaf))) 63880 [40599] (.node (.node (.node .leaf 63881 [40654] .leaf) 63882 [21147] (.node .leaf 63883 [26310] .leaf)) 63884 [27511] (.node (.node .leaf 63885 [36706] .leaf) 63886 [24180] (.node .leaf 63887 [24976] .leaf)))) 63888 [25088] (.node (.node (.node (.node .leaf 63889 [25754] .leaf) 63890 [28451] (.node .leaf 63891 [29001] .leaf)) 63892 [29833] (.node (.node .leaf 63893 [31178] .leaf) 63894 [32244] (.node .leaf 63895 [32879] .leaf))) 63896 [36646] (.node (.node (.node .leaf 63897 [34030] .leaf) 63898 [36899] (.node .leaf 63899 [37706] .leaf)) 63900 [21015] (.node (.node .leaf 63901 [21155] .leaf) 63902 [21693] (.node .leaf 63903 [28872] .leaf)))))
def nfdMap_36 : MTree := (.node (.node (.node (.node (.node (.node .leaf 63905 [35498] .leaf) 63906 [24265] .leaf) 63907 [24565] (.node .leaf 63908 [25467] .leaf)) 63909 [27566] (.node (.node .leaf 63910 [31806] .leaf) 63911 [29557] (.node .leaf 63912 [20196] .leaf))) 63913 [22265] (.node (.node (.node .leaf 63914 [23527] .leaf) 63915 [23994] (.node .leaf 63916 [24604] .leaf)) 63917 [29618] (.node (.node .leaf 63918 [29801] .leaf) 63919 [32666] (.node .leaf 63920 [32838] .leaf)))) 63921 [37428] (.node (.node (.node (.node .leaf 63922 [38646] .leaf) 63923 [38728] (.node .leaf 63924 [38936] .leaf)) 63925 [20363] (.node (.node .leaf 63926 [31150] .leaf) 63927 [37300] (.node .leaf 63928 [38584] .leaf))) 63929 [24801] (.node (.node (.node .leaf 63930 [20102] .leaf) 63931 [20698] (.node .leaf 63932 [23534] .leaf)) 63933 [23615] (.node (.node .leaf 63934 [26009] .leaf) 63935 [27138] (.node .leaf 63936 [29134] .leaf)))))
def nfdMap_37 : MTree := (.node (.node (.node (.node (.node .leaf 63938 [34044] .leaf) 63939 [36988] (.node .leaf 63940 [40845] .leaf)) 63941 [26248] (.node (.node .leaf 63942 [38446] .leaf) 63943 [21129] (.node .leaf 63944 [26491] .leaf))) 63945 [26611] (.node (.node (.node .leaf 63946 [27969] .leaf) 63947 [28316] (.node .leaf 63948 [29705] .leaf)) 63949 [30041] (.node (.node .leaf 63950 [30827] .leaf) 63951 [32016] (.node .leaf 63952 [39006] .leaf)))) 63953 [20845] (.node (.node (.node (.node .leaf 63954 [25134] .leaf) 63955 [38520] (.node .leaf 63956 [20523] .leaf)) 63957 [23833] (.node (.node .leaf 63958 [28138] .leaf) 63959 [36650] (.node .leaf 63960 [24459] .leaf))) 63961 [24900] (.node (.node (.node .leaf 63962 [26647] .leaf) 63963 [29575] (.node .leaf 63964 [38534] .leaf)) 63965 [21033] (.node (.node .leaf 63966 [21519] .leaf) 63967 [23653] (.node .leaf 63968 [26131] .leaf)))))
def nfdMap_38 : MTree := (.node (.node (.node (.node (.node .leaf 63970 [26792] .leaf) 63971 [27877] (.node .leaf 63972 [29702] .leaf)) 63973 [30178] (.node (.node .leaf 63974 [32633] .leaf) 63975 [35023] (.node .leaf 63976 [35041] .leaf))) 63977 [37324] (.node (.node (.node .leaf 63978 [38626] .leaf) 63979 [21311] (.node .leaf 63980 [28346] .leaf)) 63981 [21533] (.node (.node .leaf 63982 [29136] .leaf) 63983 [29848] (.node .leaf 63984 [34298] .leaf)))) 63985 [38563] (.node (.node (.node (.node .leaf 63986 [40023] .leaf) 63987 [40607] (.node .leaf 63988 [26519] .leaf)) 63989 [28107] (.node (.node .leaf 63990 [33256] .leaf) 63991 [31435] (.node .leaf 63992 [31520] .leaf))) 63993 [31890] (.node (.node (.node .leaf 63994 [29376] .leaf) 63995 [28825] (.node .leaf 63996 [35672] .leaf)) 63997 [20160] (.node (.node .leaf 63998 [33590] .leaf) 63999 [21050] (.node .leaf 64000 [20999] .leaf)))))
def nfdMap_39 : MTree := (.node (.node (.node (.node (.node .leaf 64002 [25299] .leaf) 64003 [31958] (.node .leaf 64004 [23429] .leaf)) 64005 [27934] (.node (.node .leaf 64006 [26292] .leaf) 64007 [36667] (.node .leaf 64008 [34892] .leaf))) 64009 [38477] (.node (.node (.node .leaf 64010 [35211] .leaf) 64011 [24275] (.node .leaf 64012 [20800] .leaf)) 64013 [21952] (.node (.node .leaf 64016 [22618] .leaf) 64018 [26228] (.node .leaf 64021 [20958] .leaf)))) 64022 [29482] (.node (.node (.node (.node .leaf 64023 [30410] .leaf) 64024 [31036] (.node .leaf 64025 [31070] .leaf)) 64026 [31077] (.node (.node .leaf 64027 [31119] .leaf) 64028 [38742] (.node .leaf 64029 [31934] .leaf))) 64030 [32701] (.node (.node (.node .leaf 64032 [34322] .leaf) 64034 [35576] (.node .leaf 64037 [36920] .leaf)) 64038 [37117] (.node (.node .leaf 64042 [39151] .leaf) 64043 [39164] (.node .leaf 64044 [39208] .leaf)))))
def nfdMap_40 : MTree := (.node (.node (.node (.node (.node (.node .leaf 64046 [37086] .leaf) 64047 [38583] .leaf) 64048 [20398] (.node .leaf 64049 [20711] .leaf)) 64050 [20813] (.node (.node .leaf 64051 [21193] .leaf) 64052 [21220] (.node .leaf 64053 [21329] .leaf))) 64054 [21917] (.node (.node (.node .leaf 64055 [22022] .leaf) 64056 [22120] (.node .leaf 64057 [22592] .leaf)) 64058 [22696] (.node (.node .leaf 64059 [23652] .leaf) 64060 [23662] (.node .leaf 64061 [24724] .leaf)))) 64062 [24936] (.node (.node (.node (.node .leaf 64063 [24974] .leaf) 64064 [25074] (.node .leaf 64065 [25935] .leaf)) 64066 [26082] (.node (.node .leaf 64067 [26257] .leaf) 64068 [26757] (.node .leaf 64069 [28023] .leaf))) 64070 [28186] (.node (.node (.node .leaf 64071 [28450] .leaf) 64072 [29038] (.node .leaf 64073 [29227] .leaf)) 64074 [29730] (.node (.node .leaf 64075 [30865] .leaf) 64076 [31038] (.node .leaf 64077 [31049] .leaf)))))
def nfdMap_41 : MTree := (.node (.node (.node (.node (.node .leaf 64079 [31056] .leaf) 64080 [31062] (.node .leaf 64081 [31069] .leaf)) 64082 [31117] (.node (.node .leaf 64083 [31118] .leaf) 64084 [31296] (.node .leaf 64085 [31361] .leaf))) 64086 [31680] (.node (.node (.node .leaf 64087 [32244] .leaf) 64088 [32265] (.node .leaf 64089 [32321] .leaf)) 64090 [32626] (.node (.node .leaf 64091 [32773] .leaf) 64092 [33261] (.node .leaf 64093 [33401] .leaf)))) 64094 [33401] (.node (.node (.node (.node .leaf 64095 [33879] .leaf) 64096 [35088] (.node .leaf 64097 [35222] .leaf)) 64098 [35585] (.node (.node .leaf 64099 [35641] .leaf) 64100 [36051] (.node .leaf 64101 [36104] .leaf))) 64102 [36790] (.node (.node (.node .leaf 64103 [36920] .leaf) 64104 [38627] (.node .leaf 64105 [38911] .leaf)) 64106 [38971] (.node (.node .leaf 64107 [24693] .leaf) 64108 [148206] (.node .leaf 64109 [33304] .leaf)))))
def nfdMap_42 : MTree := (.node (.node (.node (.node (.node .leaf 64113 [20917] .leaf) 64114 [20840] (.node .leaf 64115 [20352] .leaf)) 64116 [20805] (.node (.node .leaf 64117 [20864] .leaf) 64118 [21191] (.node .leaf 64119 [21242] .leaf))) 64120 [21917] (.node (.node (.node .leaf 64121 [21845] .leaf) 64122 [21913] (.node .leaf 64123 [21986] .leaf)) 64124 [22618] (.node (.node .leaf 64125 [22707] .leaf) 64126 [22852] (.node .leaf 64127 [22868] .leaf)))) 64128 [23138] (.node (.node (.node (.node .leaf 64129 [23336] .leaf) 64130 [24274] (.node .leaf 64131 [24281] .leaf)) 64132 [24425] (.node (.node .leaf 64133 [24493] .leaf) 64134 [24792] (.node .leaf 64135 [24910] .leaf))) 64136 [24840] (.node (.node (.node .leaf 64137 [24974] .leaf) 64138 [24928] (.node .leaf 64139 [25074] .leaf)) 64140 [25140] (.node (.node .leaf 64141 [25540] .leaf) 64142 [25628] (.node .leaf 64143 [25682] .leaf)))))
def nfdMap_43 : MTree := (.node (.node (.node (.node (.node .leaf 64145 [26228] .leaf) 64146 [26391] (.node .leaf 64147 [26395] .leaf)) 64148 [26454] (.node (.node .leaf 64149 [27513] .leaf) 64150 [27578] (.node .leaf 64151 [27969] .leaf))) 64152 [28379] (.node (.node (.node .leaf 64153 [28363] .leaf) 64154 [28450] (.node .leaf 64155 [28702] .leaf)) 64156 [29038] (.node (.node .leaf 64157 [30631] .leaf) 64158 [29237] (.node .leaf 64159 [29359] .leaf)))) 64160 [29482] (.node (.node (.node (.node .leaf 64161 [29809] .leaf) 64162 [29958] (.node .leaf 64163 [30011] .leaf)) 64164 [30237] (.node (.node .leaf 64165 [30239] .leaf) 64166 [30410] (.node .leaf 64167 [30427] .leaf))) 64168 [30452] (.node (.node (.node .leaf 64169 [30538] .leaf) 64170 [30528] (.node .leaf 64171 [30924] .leaf)) 64172 [31409] (.node (.node .leaf 64173 [31680] .leaf) 64174 [31867] (.node .leaf 64175 [32091] .leaf)))))
def nfdMap_44 : MTree := (.node (.node (.node (.node (.node (.node .leaf 64177 [32574] .leaf) 64178 [32773] .leaf) 64179 [33618] (.node .leaf 64180 [33775] .leaf)) 64181 [34681] (.node (.node .leaf 64182 [35137] .leaf) 64183 [35206] (.node .leaf 64184 [35222] .leaf))) 64185 [35519] (.node (.node (.node .leaf 64186 [35576] .leaf) 64187 [35531] (.node .leaf 64188 [35585] .leaf)) 64189 [35582] (.node (.node .leaf 64190 [35565] .leaf) 64191 [35641] (.node .leaf 64192 [35722] .leaf)))) 64193 [36104] (.node (.node (.node (.node .leaf 64194 [36664] .leaf) 64195 [36978] (.node .leaf 64196 [37273] .leaf)) 64197 [37494] (.node (.node .leaf 64198 [38524] .leaf) 64199 [38627] (.node .leaf 64200 [38742] .leaf))) 64201 [38875] (.node (.node (.node .leaf 64202 [38911] .leaf) 64203 [38923] (.node .leaf 64204 [38971] .leaf)) 64205 [39698] (.node (.node .leaf 64206 [40860] .leaf) 64207 [141386] (.node .leaf 64208 [141380] .leaf)))))
def nfdMap_45 : MTree := (.node (.node (.node (.node (.node .leaf 64210 [15261] .leaf) 64211 [16408] (.node .leaf 64212 [16441] .leaf)) 64213 [152137] (.node (.node .leaf 64214 [154832] .leaf) 64215 [163539] (.node .leaf 64216 [40771] .leaf))) 64217 [40846] (.node (.node (.node .leaf 64285 [1497, 1460] .leaf) 64287 [1522, 1463] (.node .leaf 64298 [1513, 1473] .leaf)) 64299 [1513, 1474] (.node (.node .leaf 64300 [1513, 1468, 1473] .leaf) 64301 [1513, 1468, 1474] (.node .leaf 64302 [1488, 1463] .leaf)))) 64303 [1488, 1464] (.node (.node (.node (.node .leaf 64304 [1488, 1468] .leaf) 64305 [1489, 1468] (.node .leaf 64306 [1490, 1468] .leaf)) 64307 [1491, 1468] (.node (.node .leaf 64308 [1492, 1468] .leaf) 64309 [1493, 1468] (.node .leaf 64310 [1494, 1468] .leaf))) 64312 [1496, 1468] (.node (.node (.node .leaf 64313 [1497, 1468] .leaf) 64314 [1498, 1468] (.node .leaf 64315 [1499, 1468] .leaf)) 64316 [1500, 1468] (.node (.node .leaf 64318 [1502, 1468] .leaf) 64320 [1504, 1468] (.node .leaf 64321 [1505, 1468] .leaf)))))
def nfdMap_46 : MTree := (.node (.node (.node (.node (.node .leaf 64324 [1508, 1468] .leaf) 64326 [1510, 1468] (.node .leaf 64327 [1511, 1468] .leaf)) 64328 [1512, 1468] (.node (.node .leaf 64329 [1513, 1468] .leaf) 64330 [1514, 1468] (.node .leaf 64331 [1493, 1465] .leaf))) 64332 [1489, 1471] (.node (.node (.node .leaf 64333 [1499, 1471] .leaf) 64334 [1508, 1471] (.node .leaf 69786 [69785, 69818] .leaf)) 69788 [69787, 69818] (.node (.node .leaf 69803 [69797, 69818] .leaf) 69934 [69937, 69927] (.node .leaf 69935 [69938, 69927] .leaf)))) 70475 [70471, 70462] (.node (.node (.node (.node .leaf 70476 [70471, 70487] .leaf) 70843 [70841, 70842] (.node .leaf 70844 [70841, 70832] .leaf)) 70846 [70841, 70845] (.node (.node .leaf 71098 [71096, 71087] .leaf) 71099 [71097, 71087] (.node .leaf 71992 [71989, 71984] .leaf))) 119134 [119127, 119141] (.node (.node (.node .leaf 119135 [119128, 119141] .leaf) 119136 [119128, 119141, 119150] (.node .leaf 119137 [119128, 119141, 119151] .leaf)) 119138 [119128, 119141, 119152] (.node (.node .leaf 119139 [119128, 119141, 119153] .leaf) 119140 [119128, 119141, 119154] (.node .leaf 119227 [119225, 119141] .leaf)))))
def nfdMap_47 : MTree := (.node (.node (.node (.node (.node .leaf 119229 [119225, 119141, 119150] .leaf) 119230 [119226, 119141, 119150] (.node .leaf 119231 [119225, 119141, 119151] .leaf)) 119232 [119226, 119141, 119151] (.node (.node .leaf 194560 [20029] .leaf) 194561 [20024] (.node .leaf 194562 [20033] .leaf))) 194563 [131362] (.node (.node (.node .leaf 194564 [20320] .leaf) 194565 [20398] (.node .leaf 194566 [20411] .leaf)) 194567 [20482] (.node (.node .leaf 194568 [20602] .leaf) 194569 [20633] (.node .leaf 194570 [20711] .leaf)))) 194571 [20687] (.node (.node (.node (.node .leaf 194572 [13470] .leaf) 194573 [132666] (.node .leaf 194574 [20813] .leaf)) 194575 [20820] (.node (.node .leaf 194576 [20836] .leaf) 194577 [20855] (.node .leaf 194578 [132380] .leaf))) 194579 [13497] (.node (.node (.node .leaf 194580 [20839] .leaf) 194581 [20877] (.node .leaf 194582 [132427] .leaf)) 194583 [20887] (.node (.node .leaf 194584 [20900] .leaf) 194585 [20172] (.node .leaf 194586 [20908] .leaf)))))
def nfdMap_48 : MTree := (.node (.node (.node (.node (.node (.node .leaf 194588 [168415] .leaf) 194589 [20981] .leaf) 194590 [20995] (.node .leaf 194591 [13535] .leaf)) 194592 [21051] (.node (.node .leaf 194593 [21062] .leaf) 194594 [21106] (.node .leaf 194595 [21111] .leaf))) 194596 [13589] (.node (.node (.node .leaf 194597 [21191] .leaf) 194598 [21193] (.node .leaf 194599 [21220] .leaf)) 194600 [21242] (.node (.node .leaf 194601 [21253] .leaf) 194602 [21254] (.node .leaf 194603 [21271] .leaf)))) 194604 [21321] (.node (.node (.node (.node .leaf 194605 [21329] .leaf) 194606 [21338] (.node .leaf 194607 [21363] .leaf)) 194608 [21373] (.node (.node .leaf 194609 [21375] .leaf) 194610 [21375] (.node .leaf 194611 [21375] .leaf))) 194612 [133676] (.node (.node (.node .leaf 194613 [28784] .leaf) 194614 [21450] (.node .leaf 194615 [21471] .leaf)) 194616 [133987] (.node (.node .leaf 194617 [21483] .leaf) 194618 [21489] (.node .leaf 194619 [21510] .leaf)))))
def nfdMap_49 : MTree := (.node (.node (.node (.node (.node .leaf 194621 [21560] .leaf) 194622 [21576] (.node .leaf 194623 [21608] .leaf)) 194624 [21666] (.node (.node .leaf 194625 [21750] .leaf) 194626 [21776] (.node .leaf 194627 [21843] .leaf))) 194628 [21859] (.node (.node (.node .leaf 194629 [21892] .leaf) 194630 [21892] (.node .leaf 194631 [21913] .leaf)) 194632 [21931] (.node (.node .leaf 194633 [21939] .leaf) 194634 [21954] (.node .leaf 194635 [22294] .leaf)))) 194636 [22022] (.node (.node (.node (.node .leaf 194637 [22295] .leaf) 194638 [22097] (.node .leaf 194639 [22132] .leaf)) 194640 [20999] (.node (.node .leaf 194641 [22766] .leaf) 194642 [22478] (.node .leaf 194643 [22516] .leaf))) 194644 [22541] (.node (.node (.node .leaf 194645 [22411] .leaf) 194646 [22578] (.node .leaf 194647 [22577] .leaf)) 194648 [22700] (.node (.node .leaf 194649 [136420] .leaf) 194650 [22770] (.node .leaf 194651 [22775] .leaf)))))
def nfdMap_50 : MTree := (.node (.node (.node (.node (.node .leaf 194653 [22810] .leaf) 194654 [22818] (.node .leaf 194655 [22882] .leaf)) 194656 [136872] (.node (.node .leaf 194657 [136938] .leaf) 194658 [23020] (.node .leaf 194659 [23067] .leaf))) 194660 [23079] (.node (.node (.node .leaf 194661 [23000] .leaf) 194662 [23142] (.node .leaf 194663 [14062] .leaf)) 194664 [14076] (.node (.node .leaf 194665 [23304] .leaf) 194666 [23358] (.node .leaf 194667 [23358] .leaf)))) 194668 [137672] (.node (.node (.node (.node .leaf 194669 [23491] .leaf) 194670 [23512] (.node .leaf 194671 [23527] .leaf)) 194672 [23539] (.node (.node .leaf 194673 [138008] .leaf) 194674 [23551] (.node .leaf 194675 [23558] .leaf))) 194676 [24403] (.node (.node (.node .leaf 194677 [23586] .leaf) 194678 [14209] (.node .leaf 194679 [23648] .leaf)) 194680 [23662] (.node (.node .leaf 194681 [23744] .leaf) 194682 [23693] (.node .leaf 194683 [138724] .leaf)))))
def nfdMap_51 : MTree := (.node (.node (.node (.node (.node .leaf 194685 [138726] .leaf) 194686 [23918] (.node .leaf 194687 [23915] .leaf)) 194688 [23932] (.node (.node .leaf 194689 [24033] .leaf) 194690 [24034] (.node .leaf 194691 [14383] .leaf))) 194692 [24061] (.node (.node (.node .leaf 194693 [24104] .leaf) 194694 [24125] (.node .leaf 194695 [24169] .leaf)) 194696 [14434] (.node (.node .leaf 194697 [139651] .leaf) 194698 [14460] (.node .leaf 194699 [24240] .leaf)))) 194700 [24243] (.node (.node (.node (.node .leaf 194701 [24246] .leaf) 194702 [24266] (.node .leaf 194703 [172946] .leaf)) 194704 [24318] (.node (.node .leaf 194705 [140081] .leaf) 194706 [140081] (.node .leaf 194707 [33281] .leaf))) 194708 [24354] (.node (.node (.node .leaf 194709 [24354] .leaf) 194710 [14535] (.node .leaf 194711 [144056] .leaf)) 194712 [156122] (.node (.node .leaf 194713 [24418] .leaf) 194714 [24427] (.node .leaf 194715 [14563] .leaf)))))
def nfdMap_52 : MTree := (.node (.node (.node (.node (.node (.node .leaf 194717 [24525] .leaf) 194718 [24535] .leaf) 194719 [24569] (.node .leaf 194720 [24705] .leaf)) 194721 [14650] (.node (.node .leaf 194722 [14620] .leaf) 194723 [24724] (.node .leaf 194724 [141012] .leaf))) 194725 [24775] (.node (.node (.node .leaf 194726 [24904] .leaf) 194727 [24908] (.node .leaf 194728 [24910] .leaf)) 194729 [24908] (.node (.node .leaf 194730 [24954] .leaf) 194731 [24974] (.node .leaf 194732 [25010] .leaf)))) 194733 [24996] (.node (.node (.node (.node .leaf 194734 [25007] .leaf) 194735 [25054] (.node .leaf 194736 [25074] .leaf)) 194737 [25078] (.node (.node .leaf 194738 [25104] .leaf) 194739 [25115] (.node .leaf 194740 [25181] .leaf))) 194741 [25265] (.node (.node (.node .leaf 194742 [25300] .leaf) 194743 [25424] (.node .leaf 194744 [142092] .leaf)) 194745 [25405] (.node (.node .leaf 194746 [25340] .leaf) 194747 [25448] (.node .leaf 194748 [25475] .leaf)))))
def nfdMap_53 : MTree := (.node (.node (.node (.node (.node .leaf 194750 [142321] .leaf) 194751 [25634] (.node .leaf 194752 [25541] .leaf)) 194753 [25513] (.node (.node .leaf 194754 [14894] .leaf) 194755 [25705] (.node .leaf 194756 [25726] .leaf))) 194757 [25757] (.node (.node (.node .leaf 194758 [25719] .leaf) 194759 [14956] (.node .leaf 194760 [25935] .leaf)) 194761 [25964] (.node (.node .leaf 194762 [143370] .leaf) 194763 [26083] (.node .leaf 194764 [26360] .leaf)))) 194765 [26185] (.node (.node (.node (.node .leaf 194766 [15129] .leaf) 194767 [26257] (.node .leaf 194768 [15112] .leaf)) 194769 [15076] (.node (.node .leaf 194770 [20882] .leaf) 194771 [20885] (.node .leaf 194772 [26368] .leaf))) 194773 [26268] (.node (.node (.node .leaf 194774 [32941] .leaf) 194775 [17369] (.node .leaf 194776 [26391] .leaf)) 194777 [26395] (.node (.node .leaf 194778 [26401] .leaf) 194779 [26462] (.node .leaf 194780 [26451] .leaf)))))
def nfdMap_54 : MTree := (.node (.node (.node (.node (.node .leaf 194782 [15177] .leaf) 194783 [26618] (.node .leaf 194784 [26501] .leaf)) 194785 [26706] (.node (.node .leaf 194786 [26757] .leaf) 194787 [144493] (.node .leaf 194788 [26766] .leaf))) 194789 [26655] (.node (.node (.node .leaf 194790 [26900] .leaf) 194791 [15261] (.node .leaf 194792 [26946] .leaf)) 194793 [27043] (.node (.node .leaf 194794 [27114] .leaf) 194795 [27304] (.node .leaf 194796 [145059] .leaf)))) 194797 [27355] (.node (.node (.node (.node .leaf 194798 [15384] .leaf) 194799 [27425] (.node .leaf 194800 [145575] .leaf)) 194801 [27476] (.node (.node .leaf 194802 [15438] .leaf) 194803 [27506] (.node .leaf 194804 [27551] .leaf))) 194805 [27578] (.node (.node (.node .leaf 194806 [27579] .leaf) 194807 [146061] (.node .leaf 194808 [138507] .leaf)) 194809 [146170] (.node (.node .leaf 194810 [27726] .leaf) 194811 [146620] (.node .leaf 194812 [27839] .leaf)))))
def nfdMap_55 : MTree := (.node (.node (.node (.node (.node .leaf 194814 [27751] .leaf) 194815 [27926] (.node .leaf 194816 [27966] .leaf)) 194817 [28023] (.node (.node .leaf 194818 [27969] .leaf) 194819 [28009] (.node .leaf 194820 [28024] .leaf))) 194821 [28037] (.node (.node (.node .leaf 194822 [146718] .leaf) 194823 [27956] (.node .leaf 194824 [28207] .leaf)) 194825 [28270] (.node (.node .leaf 194826 [15667] .leaf) 194827 [28363] (.node .leaf 194828 [28359] .leaf)))) 194829 [147153] (.node (.node (.node (.node .leaf 194830 [28153] .leaf) 194831 [28526] (.node .leaf 194832 [147294] .leaf)) 194833 [147342] (.node (.node .leaf 194834 [28614] .leaf) 194835 [28729] (.node .leaf 194836 [28702] .leaf))) 194837 [28699] (.node (.node (.node .leaf 194838 [15766] .leaf) 194839 [28746] (.node .leaf 194840 [28797] .leaf)) 194841 [28791] (.node (.node .leaf 194842 [28845] .leaf) 194843 [132389] (.node .leaf 194844 [28997] .leaf)))))
def nfdMap_56 : MTree := (.node (.node (.node (.node (.node (.node .leaf 194846 [29084] .leaf) 194847 [148395] .leaf) 194848 [29224] (.node .leaf 194849 [29237] .leaf)) 194850 [29264] (.node (.node .leaf 194851 [149000] .leaf) 194852 [29312] (.node .leaf 194853 [29333] .leaf))) 194854 [149301] (.node (.node (.node .leaf 194855 [149524] .leaf) 194856 [29562] (.node .leaf 194857 [29579] .leaf)) 194858 [16044] (.node (.node .leaf 194859 [29605] .leaf) 194860 [16056] (.node .leaf 194861 [16056] .leaf)))) 194862 [29767] (.node (.node (.node (.node .leaf 194863 [29788] .leaf) 194864 [29809] (.node .leaf 194865 [29829] .leaf)) 194866 [29898] (.node (.node .leaf 194867 [16155] .leaf) 194868 [29988] (.node .leaf 194869 [150582] .leaf))) 194870 [30014] (.node (.node (.node .leaf 194871 [150674] .leaf) 194872 [30064] (.node .leaf 194873 [139679] .leaf)) 194874 [30224] (.node (.node .leaf 194875 [151457] .leaf) 194876 [151480] (.node .leaf 194877 [151620] .leaf)))))
def nfdMap_57 : MTree := (.node (.node (.node (.node (.node .leaf 194879 [16392] .leaf) 194880 [30452] (.node .leaf 194881 [151795] .leaf)) 194882 [151794] (.node (.node .leaf 194883 [151833] .leaf) 194884 [151859] (.node .leaf 194885 [30494] .leaf))) 194886 [30495] (.node (.node (.node .leaf 194887 [30495] .leaf) 194888 [30538] (.node .leaf 194889 [16441] .leaf)) 194890 [30603] (.node (.node .leaf 194891 [16454] .leaf) 194892 [16534] (.node .leaf 194893 [152605] .leaf)))) 194894 [30798] (.node (.node (.node (.node .leaf 194895 [30860] .leaf) 194896 [30924] (.node .leaf 194897 [16611] .leaf)) 194898 [153126] (.node (.node .leaf 194899 [31062] .leaf) 194900 [153242] (.node .leaf 194901 [153285] .leaf))) 194902 [31119] (.node (.node (.node .leaf 194903 [31211] .leaf) 194904 [16687] (.node .leaf 194905 [31296] .leaf)) 194906 [31306] (.node (.node .leaf 194907 [31311] .leaf) 194908 [153980] (.node .leaf 194909 [154279] .leaf)))))
def nfdMap_58 : MTree := (.node (.node (.node (.node (.node .leaf 194911 [31470] .leaf) 194912 [16898] (.node .leaf 194913 [154539] .leaf)) 194914 [31686] (.node (.node .leaf 194915 [31689] .leaf) 194916 [16935] (.node .leaf 194917 [154752] .leaf))) 194918 [31954] (.node (.node (.node .leaf 194919 [17056] .leaf) 194920 [31976] (.node .leaf 194921 [31971] .leaf)) 194922 [32000] (.node (.node .leaf 194923 [155526] .leaf) 194924 [32099] (.node .leaf 194925 [17153] .leaf)))) 194926 [32199] (.node (.node (.node (.node .leaf 194927 [32258] .leaf) 194928 [32325] (.node .leaf 194929 [17204] .leaf)) 194930 [156200] (.node (.node .leaf 194931 [156231] .leaf) 194932 [17241] (.node .leaf 194933 [156377] .leaf))) 194934 [32634] (.node (.node (.node .leaf 194935 [156478] .leaf) 194936 [32661] (.node .leaf 194937 [32762] .leaf)) 194938 [32773] (.node (.node .leaf 194939 [156890] .leaf) 194940 [156963] (.node .leaf 194941 [32864] .leaf)))))
def nfdMap_59 : MTree := (.node (.node (.node (.node (.node .leaf 194943 [32880] .leaf) 194944 [144223] (.node .leaf 194945 [17365] .leaf)) 194946 [32946] (.node (.node .leaf 194947 [33027] .leaf) 194948 [17419] (.node .leaf 194949 [33086] .leaf))) 194950 [23221] (.node (.node (.node .leaf 194951 [157607] .leaf) 194952 [157621] (.node .leaf 194953 [144275] .leaf)) 194954 [144284] (.node (.node .leaf 194955 [33281] .leaf) 194956 [33284] (.node .leaf 194957 [36766] .leaf)))) 194958 [17515] (.node (.node (.node (.node .leaf 194959 [33425] .leaf) 194960 [33419] (.node .leaf 194961 [33437] .leaf)) 194962 [21171] (.node (.node .leaf 194963 [33457] .leaf) 194964 [33459] (.node .leaf 194965 [33469] .leaf))) 194966 [33510] (.node (.node (.node .leaf 194967 [158524] .leaf) 194968 [33509] (.node .leaf 194969 [33565] .leaf)) 194970 [33635] (.node (.node .leaf 194971 [33709] .leaf) 194972 [33571] (.node .leaf 194973 [33725] .leaf)))))
def nfdMap_60 : MTree := (.node (.node (.node (.node (.node .leaf 194975 [33879] .leaf) 194976 [33619] (.node .leaf 194977 [33738] .leaf)) 194978 [33740] (.node (.node .leaf 194979 [33756] .leaf) 194980 [158774] (.node .leaf 194981 [159083] .leaf))) 194982 [158933] (.node (.node (.node .leaf 194983 [17707] .leaf) 194984 [34033] (.node .leaf 194985 [34035] .leaf)) 194986 [34070] (.node (.node .leaf 194987 [160714] .leaf) 194988 [34148] (.node .leaf 194989 [159532] .leaf)))) 194990 [17757] (.node (.node (.node (.node .leaf 194991 [17761] .leaf) 194992 [159665] (.node .leaf 194993 [159954] .leaf)) 194994 [17771] (.node (.node .leaf 194995 [34384] .leaf) 194996 [34396] (.node .leaf 194997 [34407] .leaf))) 194998 [34409] (.node (.node (.node .leaf 194999 [34473] .leaf) 195000 [34440] (.node .leaf 195001 [34574] .leaf)) 195002 [34530] (.node (.node .leaf 195003 [34681] .leaf) 195004 [34600] (.node .leaf 195005 [34667] .leaf)))))
def nfdMap_61 : MTree := (.node (.node (.node (.node (.node .leaf 195007 [17879] .leaf) 195008 [34785] (.node .leaf 195009 [34817] .leaf)) 195010 [17913] (.node (.node .leaf 195011 [34912] .leaf) 195012 [34915] (.node .leaf 195013 [161383] .leaf))) 195014 [35031] (.node (.node (.node .leaf 195015 [35038] .leaf) 195016 [17973] (.node .leaf 195017 [35066] .leaf)) 195018 [13499] (.node (.node .leaf 195019 [161966] .leaf) 195020 [162150] (.node .leaf 195021 [18110] .leaf)))) 195022 [18119] (.node (.node (.node (.node .leaf 195023 [35488] .leaf) 195024 [35565] (.node .leaf 195025 [35722] .leaf)) 195026 [35925] (.node (.node .leaf 195027 [162984] .leaf) 195028 [36011] (.node .leaf 195029 [36033] .leaf))) 195030 [36123] (.node (.node (.node .leaf 195031 [36215] .leaf) 195032 [163631] (.node .leaf 195033 [133124] .leaf)) 195034 [36299] (.node (.node .leaf 195035 [36284] .leaf) 195036 [36336] (.node .leaf 195037 [133342] .leaf)))))
def nfdMap_62 : MTree := (.node (.node (.node (.node (.node .leaf 195039 [36664] .leaf) 195040 [165330] (.node .leaf 195041 [165357] .leaf)) 195042 [37012] (.node (.node .leaf 195043 [37105] .leaf) 195044 [37137] (.node .leaf 195045 [165678] .leaf))) 195046 [37147] (.node (.node (.node .leaf 195047 [37432] .leaf) 195048 [37591] (.node .leaf 195049 [37592] .leaf)) 195050 [37500] (.node (.node .leaf 195051 [37881] .leaf) 195052 [37909] (.node .leaf 195053 [166906] .leaf)))) 195054 [38283] (.node (.node (.node (.node .leaf 195055 [18837] .leaf) 195056 [38327] (.node .leaf 195057 [167287] .leaf)) 195058 [18918] (.node (.node .leaf 195059 [38595] .leaf) 195060 [23986] (.node .leaf 195061 [38691] .leaf))) 195062 [168261] (.node (.node (.node .leaf 195063 [168474] .leaf) 195064 [19054] (.node .leaf 195065 [19062] .leaf)) 195066 [38880] (.node (.node .leaf 195067 [168970] .leaf) 195068 [19122] (.node .leaf 195069 [169110] .leaf)))))
def nfdMap_63 : MTree := (.node (.node (.node (.node (.node .leaf 195071 [38923] .leaf) 195072 [38953] (.node .leaf 195073 [169398] .leaf)) 195074 [39138] (.node (.node .leaf 195075 [19251] .leaf) 195076 [39209] (.node .leaf 195077 [39335] .leaf))) 195078 [39362] (.node (.node (.node .leaf 195079 [39422] .leaf) 195080 [19406] (.node .leaf 195081 [170800] .leaf)) 195082 [39698] (.node (.node .leaf 195083 [40000] .leaf) 195084 [40189] (.node .leaf 195085 [19662] .leaf)))) 195086 [19693] (.node (.node (.node (.node .leaf 195087 [40295] .leaf) 195088 [172238] (.node .leaf 195089 [19704] .leaf)) 195090 [172293] (.node (.node .leaf 195091 [172558] .leaf) 195092 [172689] (.node .leaf 195093 [40635] .leaf))) 195094 [19798] (.node (.node (.node .leaf 195095 [40697] .leaf) 195096 [40702] (.node .leaf 195097 [40709] .leaf)) 195098 [40719] (.node (.node .leaf 195099 [40726] .leaf) 195100 [40763] (.node .leaf 195101 [173568] .leaf)))))
/-- full canonical decompositions, Hangul syllables excepted -/
def nfdMap : MTree := (.node (.node (.node (.node (.node (.node nfdMap_0 231 [99, 807] nfdMap_1) 267 [99, 775] (.node nfdMap_2 303 [105, 808] nfdMap_3)) 348 [83, 770] (.node (.node nfdMap_4 416 [79, 795] nfdMap_5) 492 [79, 808, 772] (.node nfdMap_6 529 [114, 783] nfdMap_7))) 894 [59] (.node (.node (.node nfdMap_8 1081 [1080, 774] nfdMap_9) 1260 [1069, 776] (.node nfdMap_10 2508 [2503, 2519] nfdMap_11)) 3907 [3906, 4023] (.node (.node nfdMap_12 7684 [66, 803] nfdMap_13) 7716 [72, 803] (.node nfdMap_14 7748 [78, 775] nfdMap_15)))) 7780 [83, 769, 775] (.node (.node (.node (.node nfdMap_16 7813 [119, 776] nfdMap_17) 7850 [65, 770, 771] (.node nfdMap_18 7882 [73, 803] nfdMap_19)) 7914 [85, 795, 768] (.node (.node nfdMap_20 7953 [949, 788] nfdMap_21) 7989 [953, 788, 769] (.node nfdMap_22 8027 [933, 788, 768] nfdMap_23))) 8061 [969, 769] (.node (.node (.node nfdMap_24 8096 [969, 787, 837] nfdMap_25) 8132 [951, 769, 837] (.node nfdMap_26 8168 [933, 774] nfdMap_27)) 8716 [8715, 824] (.node (.node nfdMap_28 8938 [8882, 824] nfdMap_29) 12436 [12358, 12441] (.node nfdMap_30 12542 [12541, 12441] nfdMap_31))))) 63775 [34349] (.node (.node (.node (.node (.node nfdMap_32 63808 [40575] nfdMap_33) 63840 [24594] (.node nfdMap_34 63872 [21570] nfdMap_35)) 63904 [35010] (.node (.node nfdMap_36 63937 [30274] nfdMap_37) 63969 [26446] (.node nfdMap_38 64001 [24230] nfdMap_39))) 64045 [40372] (.node (.node (.node nfdMap_40 64078 [31048] nfdMap_41) 64112 [20006] (.node nfdMap_42 64144 [25942] nfdMap_43)) 64176 [32244] (.node (.node nfdMap_44 64209 [144341] nfdMap_45) 64323 [1507, 1468] (.node nfdMap_46 119228 [119226, 119141] nfdMap_47)))) 194587 [20917] (.node (.node (.node (.node nfdMap_48 194620 [21662] nfdMap_49) 194652 [22790] (.node nfdMap_50 194684 [23875] nfdMap_51)) 194716 [24474] (.node (.node nfdMap_52 194749 [25572] nfdMap_53) 194781 [144323] (.node nfdMap_54 194813 [27853] nfdMap_55))) 194845 [148067] (.node (.node (.node nfdMap_56 194878 [16380] nfdMap_57) 194910 [154279] (.node nfdMap_58 194942 [157096] nfdMap_59)) 194974 [33767] (.node (.node nfdMap_60 195006 [34694] nfdMap_61) 195038 [36564] (.node nfdMap_62 195070 [38923] nfdMap_63))))))

def cccTree_0 : CTree := (.node (.node (.node (.node (.node (.node .leaf 768 788 230 .leaf) 789 789 232 .leaf) 790 793 220 (.node (.node .leaf 794 794 232 .leaf) 795 795 216 .leaf)) 796 800 220 (.node (.node (.node .leaf 801 802 202 .leaf) 803 806 220 .leaf) 807 808 202 (.node (.node .leaf 809 819 220 .leaf) 820 824 1 .leaf))) 825 828 220 (.node (.node (.node (.node .leaf 829 836 230 .leaf) 837 837 240 .leaf) 838 838 230 (.node (.node .leaf 839 841 220 .leaf) 842 844 230 .leaf)) 845 846 220 (.node (.node (.node .leaf 848 850 230 .leaf) 851 854 220 .leaf) 855 855 230 (.node (.node .leaf 856 856 232 .leaf) 857 858 220 .leaf)))) 859 859 230 (.node (.node (.node (.node (.node .leaf 860 860 233 .leaf) 861 862 234 .leaf) 863 863 233 (.node (.node .leaf 864 865 234 .leaf) 866 866 233 .leaf)) 867 879 230 (.node (.node (.node .leaf 1155 1159 230 .leaf) 1425 1425 220 .leaf) 1426 1429 230 (.node (.node .leaf 1430 1430 220 .leaf) 1431 1433 230 .leaf))) 1434 1434 222 (.node (.node (.node (.node .leaf 1435 1435 220 .leaf) 1436 1441 230 .leaf) 1442 1447 220 (.node (.node .leaf 1448 1449 230 .leaf) 1450 1450 220 .leaf)) 1451 1452 230 (.node (.node (.node .leaf 1453 1453 222 .leaf) 1454 1454 228 .leaf) 1455 1455 230 (.node (.node .leaf 1456 1456 10 .leaf) 1457 1457 11 .leaf)))))
def cccTree_1 : CTree := (.node (.node (.node (.node (.node (.node .leaf 1459 1459 13 .leaf) 1460 1460 14 .leaf) 1461 1461 15 (.node (.node .leaf 1462 1462 16 .leaf) 1463 1463 17 .leaf)) 1464 1464 18 (.node (.node (.node .leaf 1465 1466 19 .leaf) 1467 1467 20 .leaf) 1468 1468 21 (.node (.node .leaf 1469 1469 22 .leaf) 1471 1471 23 .leaf))) 1473 1473 24 (.node (.node (.node (.node .leaf 1474 1474 25 .leaf) 1476 1476 230 .leaf) 1477 1477 220 (.node (.node .leaf 1479 1479 18 .leaf) 1552 1559 230 .leaf)) 1560 1560 30 (.node (.node (.node .leaf 1561 1561 31 .leaf) 1562 1562 32 .leaf) 1611 1611 27 (.node (.node .leaf 1612 1612 28 .leaf) 1613 1613 29 .leaf)))) 1614 1614 30 (.node (.node (.node (.node (.node .leaf 1615 1615 31 .leaf) 1616 1616 32 .leaf) 1617 1617 33 (.node (.node .leaf 1618 1618 34 .leaf) 1619 1620 230 .leaf)) 1621 1622 220 (.node (.node (.node .leaf 1623 1627 230 .leaf) 1628 1628 220 .leaf) 1629 1630 230 (.node (.node .leaf 1631 1631 220 .leaf) 1648 1648 35 .leaf))) 1750 1756 230 (.node (.node (.node (.node .leaf 1759 1762 230 .leaf) 1763 1763 220 .leaf) 1764 1764 230 (.node (.node .leaf 1767 1768 230 .leaf) 1770 1770 220 .leaf)) 1771 1772 230 (.node (.node (.node .leaf 1773 1773 220 .leaf) 1809 1809 36 .leaf) 1840 1840 230 (.node (.node .leaf 1841 1841 220 .leaf) 1842 1843 230 .leaf)))))
def cccTree_2 : CTree := (.node (.node (.node (.node (.node (.node .leaf 1845 1846 230 .leaf) 1847 1849 220 .leaf) 1850 1850 230 (.node (.node .leaf 1851 1852 220 .leaf) 1853 1853 230 .leaf)) 1854 1854 220 (.node (.node (.node .leaf 1855 1857 230 .leaf) 1858 1858 220 .leaf) 1859 1859 230 (.node (.node .leaf 1860 1860 220 .leaf) 1861 1861 230 .leaf))) 1862 1862 220 (.node (.node (.node (.node .leaf 1863 1863 230 .leaf) 1864 1864 220 .leaf) 1865 1866 230 (.node (.node .leaf 2027 2033 230 .leaf) 2034 2034 220 .leaf)) 2035 2035 230 (.node (.node (.node .leaf 2045 2045 220 .leaf) 2070 2073 230 .leaf) 2075 2083 230 (.node (.node .leaf 2085 2087 230 .leaf) 2089 2093 230 .leaf)))) 2137 2139 220 (.node (.node (.node (.node (.node .leaf 2200 2200 230 .leaf) 2201 2203 220 .leaf) 2204 2207 230 (.node (.node .leaf 2250 2254 230 .leaf) 2255 2259 220 .leaf)) 2260 2273 230 (.node (.node (.node .leaf 2275 2275 220 .leaf) 2276 2277 230 .leaf) 2278 2278 220 (.node (.node .leaf 2279 2280 230 .leaf) 2281 2281 220 .leaf))) 2282 2284 230 (.node (.node (.node (.node .leaf 2285 2287 220 .leaf) 2288 2288 27 .leaf) 2289 2289 28 (.node (.node .leaf 2290 2290 29 .leaf) 2291 2293 230 .leaf)) 2294 2294 220 (.node (.node (.node .leaf 2295 2296 230 .leaf) 2297 2298 220 .leaf) 2299 2303 230 (.node (.node .leaf 2364 2364 7 .leaf) 2381 2381 9 .leaf)))))
def cccTree_3 : CTree := (.node (.node (.node (.node (.node (.node .leaf 2386 2386 220 .leaf) 2387 2388 230 .leaf) 2492 2492 7 (.node (.node .leaf 2509 2509 9 .leaf) 2558 2558 230 .leaf)) 2620 2620 7 (.node (.node (.node .leaf 2637 2637 9 .leaf) 2748 2748 7 .leaf) 2765 2765 9 (.node (.node .leaf 2876 2876 7 .leaf) 2893 2893 9 .leaf))) 3021 3021 9 (.node (.node (.node (.node .leaf 3132 3132 7 .leaf) 3149 3149 9 .leaf) 3157 3157 84 (.node (.node .leaf 3158 3158 91 .leaf) 3260 3260 7 .leaf)) 3277 3277 9 (.node (.node (.node .leaf 3387 3388 9 .leaf) 3405 3405 9 .leaf) 3530 3530 9 (.node (.node .leaf 3640 3641 103 .leaf) 3642 3642 9 .leaf)))) 3656 3659 107 (.node (.node (.node (.node (.node .leaf 3768 3769 118 .leaf) 3770 3770 9 .leaf) 3784 3787 122 (.node (.node .leaf 3864 3865 220 .leaf) 3893 3893 220 .leaf)) 3895 3895 220 (.node (.node (.node .leaf 3897 3897 216 .leaf) 3953 3953 129 .leaf) 3954 3954 130 (.node (.node .leaf 3956 3956 132 .leaf) 3962 3965 130 .leaf))) 3968 3968 130 (.node (.node (.node (.node .leaf 3970 3971 230 .leaf) 3972 3972 9 .leaf) 3974 3975 230 (.node (.node .leaf 4038 4038 220 .leaf) 4151 4151 7 .leaf)) 4153 4154 9 (.node (.node (.node .leaf 4237 4237 220 .leaf) 4957 4959 230 .leaf) 5908 5909 9 (.node (.node .leaf 5940 5940 9 .leaf) 6098 6098 9 .leaf)))))
def cccTree_4 : CTree := (.node (.node (.node (.node (.node (.node .leaf 6313 6313 228 .leaf) 6457 6457 222 .leaf) 6458 6458 230 (.node (.node .leaf 6459 6459 220 .leaf) 6679 6679 230 .leaf)) 6680 6680 220 (.node (.node (.node .leaf 6752 6752 9 .leaf) 6773 6780 230 .leaf) 6783 6783 220 (.node (.node .leaf 6832 6836 230 .leaf) 6837 6842 220 .leaf))) 6843 6844 230 (.node (.node (.node (.node .leaf 6845 6845 220 .leaf) 6847 6848 220 .leaf) 6849 6850 230 (.node (.node .leaf 6851 6852 220 .leaf) 6853 6857 230 .leaf)) 6858 6858 220 (.node (.node (.node .leaf 6859 6862 230 .leaf) 6964 6964 7 .leaf) 6980 6980 9 (.node (.node .leaf 7019 7019 230 .leaf) 7020 7020 220 .leaf)))) 7021 7027 230 (.node (.node (.node (.node (.node .leaf 7082 7083 9 .leaf) 7142 7142 7 .leaf) 7154 7155 9 (.node (.node .leaf 7223 7223 7 .leaf) 7376 7378 230 .leaf)) 7380 7380 1 (.node (.node (.node .leaf 7381 7385 220 .leaf) 7386 7387 230 .leaf) 7388 7391 220 (.node (.node .leaf 7392 7392 230 .leaf) 7394 7400 1 .leaf))) 7405 7405 220 (.node (.node (.node (.node .leaf 7412 7412 230 .leaf) 7416 7417 230 .leaf) 7616 7617 230 (.node (.node .leaf 7618 7618 220 .leaf) 7619 7625 230 .leaf)) 7626 7626 220 (.node (.node (.node .leaf 7627 7628 230 .leaf) 7629 7629 234 .leaf) 7630 7630 214 (.node (.node .leaf 7631 7631 220 .leaf) 7632 7632 202 .leaf)))))
def cccTree_5 : CTree := (.node (.node (.node (.node (.node (.node .leaf 7670 7670 232 .leaf) 7671 7672 228 .leaf) 7673 7673 220 (.node (.node .leaf 7674 7674 218 .leaf) 7675 7675 230 .leaf)) 7676 7676 233 (.node (.node (.node .leaf 7677 7677 220 .leaf) 7678 7678 230 .leaf) 7679 7679 220 (.node (.node .leaf 8400 8401 230 .leaf) 8402 8403 1 .leaf))) 8404 8407 230 (.node (.node (.node (.node .leaf 8408 8410 1 .leaf) 8411 8412 230 .leaf) 8417 8417 230 (.node (.node .leaf 8421 8422 1 .leaf) 8423 8423 230 .leaf)) 8424 8424 220 (.node (.node (.node .leaf 8425 8425 230 .leaf) 8426 8427 1 .leaf) 8428 8431 220 (.node (.node .leaf 8432 8432 230 .leaf) 11503 11505 230 .leaf)))) 11647 11647 9 (.node (.node (.node (.node (.node .leaf 11744 11775 230 .leaf) 12330 12330 218 .leaf) 12331 12331 228 (.node (.node .leaf 12332 12332 232 .leaf) 12333 12333 222 .leaf)) 12334 12335 224 (.node (.node (.node .leaf 12441 12442 8 .leaf) 42607 42607 230 .leaf) 42612 42621 230 (.node (.node .leaf 42654 42655 230 .leaf) 42736 42737 230 .leaf))) 43014 43014 9 (.node (.node (.node (.node .leaf 43052 43052 9 .leaf) 43204 43204 9 .leaf) 43232 43249 230 (.node (.node .leaf 43307 43309 220 .leaf) 43347 43347 9 .leaf)) 43443 43443 7 (.node (.node (.node .leaf 43456 43456 9 .leaf) 43696 43696 230 .leaf) 43698 43699 230 (.node (.node .leaf 43700 43700 220 .leaf) 43703 43704 230 .leaf)))))
def cccTree_6 : CTree := (.node (.node (.node (.node (.node (.node .leaf 43713 43713 230 .leaf) 43766 43766 9 .leaf) 44013 44013 9 (.node (.node .leaf 64286 64286 26 .leaf) 65056 65062 230 .leaf)) 65063 65069 220 (.node (.node (.node .leaf 65070 65071 230 .leaf) 66045 66045 220 .leaf) 66272 66272 220 (.node (.node .leaf 66422 66426 230 .leaf) 68109 68109 220 .leaf))) 68111 68111 230 (.node (.node (.node (.node .leaf 68152 68152 230 .leaf) 68153 68153 1 .leaf) 68154 68154 220 (.node (.node .leaf 68159 68159 9 .leaf) 68325 68325 230 .leaf)) 68326 68326 220 (.node (.node (.node .leaf 68900 68903 230 .leaf) 69291 69292 230 .leaf) 69446 69447 220 (.node (.node .leaf 69448 69450 230 .leaf) 69451 69451 220 .leaf)))) 69452 69452 230 (.node (.node (.node (.node (.node .leaf 69453 69456 220 .leaf) 69506 69506 230 .leaf) 69507 69507 220 (.node (.node .leaf 69508 69508 230 .leaf) 69509 69509 220 .leaf)) 69702 69702 9 (.node (.node (.node .leaf 69744 69744 9 .leaf) 69759 69759 9 .leaf) 69817 69817 9 (.node (.node .leaf 69818 69818 7 .leaf) 69888 69890 230 .leaf))) 69939 69940 9 (.node (.node (.node (.node .leaf 70003 70003 7 .leaf) 70080 70080 9 .leaf) 70090 70090 7 (.node (.node .leaf 70197 70197 9 .leaf) 70198 70198 7 .leaf)) 70377 70377 7 (.node (.node (.node .leaf 70378 70378 9 .leaf) 70459 70460 7 .leaf) 70477 70477 9 (.node (.node .leaf 70502 70508 230 .leaf) 70512 70516 230 .leaf)))))
def cccTree_7 : CTree := (.node (.node (.node (.node (.node (.node .leaf 70726 70726 7 .leaf) 70750 70750 230 .leaf) 70850 70850 9 (.node (.node .leaf 70851 70851 7 .leaf) 71103 71103 9 .leaf)) 71104 71104 7 (.node (.node (.node .leaf 71231 71231 9 .leaf) 71350 71350 9 .leaf) 71351 71351 7 (.node (.node .leaf 71467 71467 9 .leaf) 71737 71737 9 .leaf))) 71738 71738 7 (.node (.node (.node (.node .leaf 71997 71998 9 .leaf) 72003 72003 7 .leaf) 72160 72160 9 (.node (.node .leaf 72244 72244 9 .leaf) 72263 72263 9 .leaf)) 72345 72345 9 (.node (.node (.node .leaf 72767 72767 9 .leaf) 73026 73026 7 .leaf) 73028 73029 9 (.node (.node .leaf 73111 73111 9 .leaf) 92912 92916 1 .leaf)))) 92976 92982 230 (.node (.node (.node (.node (.node .leaf 94192 94193 6 .leaf) 113822 113822 1 .leaf) 119141 119142 216 (.node (.node .leaf 119143 119145 1 .leaf) 119149 119149 226 .leaf)) 119150 119154 216 (.node (.node (.node .leaf 119163 119170 220 .leaf) 119173 119177 230 .leaf) 119178 119179 220 (.node (.node .leaf 119210 119213 230 .leaf) 119362 119364 230 .leaf))) 122880 122886 230 (.node (.node (.node (.node .leaf 122888 122904 230 .leaf) 122907 122913 230 .leaf) 122915 122916 230 (.node (.node .leaf 122918 122922 230 .leaf) 123184 123190 230 .leaf)) 123566 123566 230 (.node (.node (.node .leaf 123628 123631 230 .leaf) 125136 125142 220 .leaf) 125252 125257 230 (.node .leaf 125258 125258 7 .leaf)))))
/-- canonical combining classes (`unicodedata.combining`), where not 0 -/
def cccTree : CTree := (.node (.node (.node cccTree_0 1458 1458 12 cccTree_1) 1844 1844 220 (.node cccTree_2 2385 2385 230 cccTree_3)) 6109 6109 230 (.node (.node cccTree_4 7633 7669 230 cccTree_5) 43710 43711 230 (.node cccTree_6 70722 70722 9 cccTree_7)))

end NumberParser.UnicodeData

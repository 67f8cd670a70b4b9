/-
Generated by tools/c2leak.py; do not edit.
Functions of instances.c.
-/
import Verif.Model.Leak.IR
import Verif.Model.Leak.Prog.Ids

namespace Faest.Leak.Prog

/-- `faest_get_paramset`, instances.c:126-155; variables: 0 paramid -/
def faest_get_paramset : Fn := ⟨1,
  block [
    .asg 1 (.var 0),
    .ite (.bin .eq (.var 1) (.lit 1))
      (block [
        .new 2 (.lit 36),
        .call (some 3) Id.memset [.var 2, .lit 0, .lit 36],
        .st 2 (.var 2) (.lit 128),
        .st 2 (.padd (.var 2) (.lit 2) 1) (.lit 4),
        .st 2 (.padd (.var 2) (.lit 4) 1) (.lit 40),
        .st 2 (.padd (.var 2) (.lit 6) 1) (.lit 10),
        .st 2 (.padd (.var 2) (.lit 8) 1) (.lit 160),
        .st 2 (.padd (.var 2) (.lit 10) 1) (.lit 1600),
        .st 2 (.padd (.var 2) (.lit 12) 1) (.lit 448),
        .st 2 (.padd (.var 2) (.lit 14) 1) (.lit 1152),
        .st 2 (.padd (.var 2) (.lit 16) 1) (.lit 11),
        .st 2 (.padd (.var 2) (.lit 18) 1) (.lit 12),
        .st 2 (.padd (.var 2) (.lit 20) 1) (.lit 11),
        .st 2 (.padd (.var 2) (.lit 22) 1) (.lit 7),
        .st 2 (.padd (.var 2) (.lit 24) 1) (.lit 4),
        .st 2 (.padd (.var 2) (.lit 26) 1) (.lit 5006),
        .st 2 (.padd (.var 2) (.lit 28) 1) (.lit 32),
        .st 4 (.padd (.var 2) (.lit 32) 1) (.lit 1),
        .ret (.ld 36 (.var 2))])
      (.ite (.bin .eq (.var 1) (.lit 2))
          (block [
            .new 4 (.lit 36),
            .call (some 5) Id.memset [.var 4, .lit 0, .lit 36],
            .st 2 (.var 4) (.lit 128),
            .st 2 (.padd (.var 4) (.lit 2) 1) (.lit 4),
            .st 2 (.padd (.var 4) (.lit 4) 1) (.lit 40),
            .st 2 (.padd (.var 4) (.lit 6) 1) (.lit 10),
            .st 2 (.padd (.var 4) (.lit 8) 1) (.lit 160),
            .st 2 (.padd (.var 4) (.lit 10) 1) (.lit 1600),
            .st 2 (.padd (.var 4) (.lit 12) 1) (.lit 448),
            .st 2 (.padd (.var 4) (.lit 14) 1) (.lit 1152),
            .st 2 (.padd (.var 4) (.lit 16) 1) (.lit 16),
            .st 2 (.padd (.var 4) (.lit 18) 1) (.lit 8),
            .st 2 (.padd (.var 4) (.lit 20) 1) (.lit 8),
            .st 2 (.padd (.var 4) (.lit 22) 1) (.lit 0),
            .st 2 (.padd (.var 4) (.lit 24) 1) (.lit 16),
            .st 2 (.padd (.var 4) (.lit 26) 1) (.lit 6336),
            .st 2 (.padd (.var 4) (.lit 28) 1) (.lit 32),
            .st 4 (.padd (.var 4) (.lit 32) 1) (.lit 2),
            .ret (.ld 36 (.var 4))])
          (.ite (.bin .eq (.var 1) (.lit 7))
              (block [
                .new 6 (.lit 36),
                .call (some 7) Id.memset [.var 6, .lit 0, .lit 36],
                .st 2 (.var 6) (.lit 128),
                .st 2 (.padd (.var 6) (.lit 2) 1) (.lit 4),
                .st 2 (.padd (.var 6) (.lit 4) 1) (.lit 0),
                .st 2 (.padd (.var 6) (.lit 6) 1) (.lit 10),
                .st 2 (.padd (.var 6) (.lit 8) 1) (.lit 160),
                .st 2 (.padd (.var 6) (.lit 10) 1) (.lit 1280),
                .st 2 (.padd (.var 6) (.lit 12) 1) (.lit 0),
                .st 2 (.padd (.var 6) (.lit 14) 1) (.lit 1280),
                .st 2 (.padd (.var 6) (.lit 16) 1) (.lit 11),
                .st 2 (.padd (.var 6) (.lit 18) 1) (.lit 12),
                .st 2 (.padd (.var 6) (.lit 20) 1) (.lit 11),
                .st 2 (.padd (.var 6) (.lit 22) 1) (.lit 7),
                .st 2 (.padd (.var 6) (.lit 24) 1) (.lit 4),
                .st 2 (.padd (.var 6) (.lit 26) 1) (.lit 4566),
                .st 2 (.padd (.var 6) (.lit 28) 1) (.lit 32),
                .st 4 (.padd (.var 6) (.lit 32) 1) (.lit 7),
                .ret (.ld 36 (.var 6))])
              (.ite (.bin .eq (.var 1) (.lit 8))
                  (block [
                    .new 8 (.lit 36),
                    .call (some 9) Id.memset [.var 8, .lit 0, .lit 36],
                    .st 2 (.var 8) (.lit 128),
                    .st 2 (.padd (.var 8) (.lit 2) 1) (.lit 4),
                    .st 2 (.padd (.var 8) (.lit 4) 1) (.lit 0),
                    .st 2 (.padd (.var 8) (.lit 6) 1) (.lit 10),
                    .st 2 (.padd (.var 8) (.lit 8) 1) (.lit 160),
                    .st 2 (.padd (.var 8) (.lit 10) 1) (.lit 1280),
                    .st 2 (.padd (.var 8) (.lit 12) 1) (.lit 0),
                    .st 2 (.padd (.var 8) (.lit 14) 1) (.lit 1280),
                    .st 2 (.padd (.var 8) (.lit 16) 1) (.lit 16),
                    .st 2 (.padd (.var 8) (.lit 18) 1) (.lit 8),
                    .st 2 (.padd (.var 8) (.lit 20) 1) (.lit 8),
                    .st 2 (.padd (.var 8) (.lit 22) 1) (.lit 0),
                    .st 2 (.padd (.var 8) (.lit 24) 1) (.lit 16),
                    .st 2 (.padd (.var 8) (.lit 26) 1) (.lit 5696),
                    .st 2 (.padd (.var 8) (.lit 28) 1) (.lit 32),
                    .st 4 (.padd (.var 8) (.lit 32) 1) (.lit 8),
                    .ret (.ld 36 (.var 8))])
                  (.ite (.bin .eq (.var 1) (.lit 3))
                      (block [
                        .new 10 (.lit 36),
                        .call (some 11) Id.memset [.var 10, .lit 0, .lit 36],
                        .st 2 (.var 10) (.lit 192),
                        .st 2 (.padd (.var 10) (.lit 2) 1) (.lit 6),
                        .st 2 (.padd (.var 10) (.lit 4) 1) (.lit 32),
                        .st 2 (.padd (.var 10) (.lit 6) 1) (.lit 12),
                        .st 2 (.padd (.var 10) (.lit 8) 1) (.lit 192),
                        .st 2 (.padd (.var 10) (.lit 10) 1) (.lit 3264),
                        .st 2 (.padd (.var 10) (.lit 12) 1) (.lit 448),
                        .st 2 (.padd (.var 10) (.lit 14) 1) (.lit 1408),
                        .st 2 (.padd (.var 10) (.lit 16) 1) (.lit 16),
                        .st 2 (.padd (.var 10) (.lit 18) 1) (.lit 12),
                        .st 2 (.padd (.var 10) (.lit 20) 1) (.lit 12),
                        .st 2 (.padd (.var 10) (.lit 22) 1) (.lit 0),
                        .st 2 (.padd (.var 10) (.lit 24) 1) (.lit 16),
                        .st 2 (.padd (.var 10) (.lit 26) 1) (.lit 12744),
                        .st 2 (.padd (.var 10) (.lit 28) 1) (.lit 64),
                        .st 4 (.padd (.var 10) (.lit 32) 1) (.lit 3),
                        .ret (.ld 36 (.var 10))])
                      (.ite (.bin .eq (.var 1) (.lit 4))
                          (block [
                            .new 12 (.lit 36),
                            .call (some 13) Id.memset [.var 12, .lit 0, .lit 36],
                            .st 2 (.var 12) (.lit 192),
                            .st 2 (.padd (.var 12) (.lit 2) 1) (.lit 6),
                            .st 2 (.padd (.var 12) (.lit 4) 1) (.lit 32),
                            .st 2 (.padd (.var 12) (.lit 6) 1) (.lit 12),
                            .st 2 (.padd (.var 12) (.lit 8) 1) (.lit 192),
                            .st 2 (.padd (.var 12) (.lit 10) 1) (.lit 3264),
                            .st 2 (.padd (.var 12) (.lit 12) 1) (.lit 448),
                            .st 2 (.padd (.var 12) (.lit 14) 1) (.lit 1408),
                            .st 2 (.padd (.var 12) (.lit 16) 1) (.lit 24),
                            .st 2 (.padd (.var 12) (.lit 18) 1) (.lit 8),
                            .st 2 (.padd (.var 12) (.lit 20) 1) (.lit 8),
                            .st 2 (.padd (.var 12) (.lit 22) 1) (.lit 0),
                            .st 2 (.padd (.var 12) (.lit 24) 1) (.lit 24),
                            .st 2 (.padd (.var 12) (.lit 26) 1) (.lit 16792),
                            .st 2 (.padd (.var 12) (.lit 28) 1) (.lit 64),
                            .st 4 (.padd (.var 12) (.lit 32) 1) (.lit 4),
                            .ret (.ld 36 (.var 12))])
                          (.ite (.bin .eq (.var 1) (.lit 9))
                              (block [
                                .new 14 (.lit 36),
                                .call (some 15) Id.memset [.var 14, .lit 0, .lit 36],
                                .st 2 (.var 14) (.lit 192),
                                .st 2 (.padd (.var 14) (.lit 2) 1) (.lit 6),
                                .st 2 (.padd (.var 14) (.lit 4) 1) (.lit 0),
                                .st 2 (.padd (.var 14) (.lit 6) 1) (.lit 12),
                                .st 2 (.padd (.var 14) (.lit 8) 1) (.lit 288),
                                .st 2 (.padd (.var 14) (.lit 10) 1) (.lit 2304),
                                .st 2 (.padd (.var 14) (.lit 12) 1) (.lit 0),
                                .st 2 (.padd (.var 14) (.lit 14) 1) (.lit 2304),
                                .st 2 (.padd (.var 14) (.lit 16) 1) (.lit 16),
                                .st 2 (.padd (.var 14) (.lit 18) 1) (.lit 12),
                                .st 2 (.padd (.var 14) (.lit 20) 1) (.lit 12),
                                .st 2 (.padd (.var 14) (.lit 22) 1) (.lit 0),
                                .st 2 (.padd (.var 14) (.lit 24) 1) (.lit 16),
                                .st 2 (.padd (.var 14) (.lit 26) 1) (.lit 10824),
                                .st 2 (.padd (.var 14) (.lit 28) 1) (.lit 48),
                                .st 4 (.padd (.var 14) (.lit 32) 1) (.lit 9),
                                .ret (.ld 36 (.var 14))])
                              (.ite (.bin .eq (.var 1) (.lit 10))
                                  (block [
                                    .new 16 (.lit 36),
                                    .call (some 17) Id.memset [.var 16, .lit 0, .lit 36],
                                    .st 2 (.var 16) (.lit 192),
                                    .st 2 (.padd (.var 16) (.lit 2) 1) (.lit 6),
                                    .st 2 (.padd (.var 16) (.lit 4) 1) (.lit 0),
                                    .st 2 (.padd (.var 16) (.lit 6) 1) (.lit 12),
                                    .st 2 (.padd (.var 16) (.lit 8) 1) (.lit 288),
                                    .st 2 (.padd (.var 16) (.lit 10) 1) (.lit 2304),
                                    .st 2 (.padd (.var 16) (.lit 12) 1) (.lit 0),
                                    .st 2 (.padd (.var 16) (.lit 14) 1) (.lit 2304),
                                    .st 2 (.padd (.var 16) (.lit 16) 1) (.lit 24),
                                    .st 2 (.padd (.var 16) (.lit 18) 1) (.lit 8),
                                    .st 2 (.padd (.var 16) (.lit 20) 1) (.lit 8),
                                    .st 2 (.padd (.var 16) (.lit 22) 1) (.lit 0),
                                    .st 2 (.padd (.var 16) (.lit 24) 1) (.lit 24),
                                    .st 2 (.padd (.var 16) (.lit 26) 1) (.lit 13912),
                                    .st 2 (.padd (.var 16) (.lit 28) 1) (.lit 48),
                                    .st 4 (.padd (.var 16) (.lit 32) 1) (.lit 10),
                                    .ret (.ld 36 (.var 16))])
                                  (.ite (.bin .eq (.var 1) (.lit 5))
                                      (block [
                                        .new 18 (.lit 36),
                                        .call (some 19) Id.memset [.var 18, .lit 0, .lit 36],
                                        .st 2 (.var 18) (.lit 256),
                                        .st 2 (.padd (.var 18) (.lit 2) 1) (.lit 8),
                                        .st 2 (.padd (.var 18) (.lit 4) 1) (.lit 52),
                                        .st 2 (.padd (.var 18) (.lit 6) 1) (.lit 14),
                                        .st 2 (.padd (.var 18) (.lit 8) 1) (.lit 224),
                                        .st 2 (.padd (.var 18) (.lit 10) 1) (.lit 4000),
                                        .st 2 (.padd (.var 18) (.lit 12) 1) (.lit 672),
                                        .st 2 (.padd (.var 18) (.lit 14) 1) (.lit 1664),
                                        .st 2 (.padd (.var 18) (.lit 16) 1) (.lit 22),
                                        .st 2 (.padd (.var 18) (.lit 18) 1) (.lit 12),
                                        .st 2 (.padd (.var 18) (.lit 20) 1) (.lit 11),
                                        .st 2 (.padd (.var 18) (.lit 22) 1) (.lit 14),
                                        .st 2 (.padd (.var 18) (.lit 24) 1) (.lit 8),
                                        .st 2 (.padd (.var 18) (.lit 26) 1) (.lit 22100),
                                        .st 2 (.padd (.var 18) (.lit 28) 1) (.lit 64),
                                        .st 4 (.padd (.var 18) (.lit 32) 1) (.lit 5),
                                        .ret (.ld 36 (.var 18))])
                                      (.ite (.bin .eq (.var 1) (.lit 6))
                                          (block [
                                            .new 20 (.lit 36),
                                            .call (some 21) Id.memset [.var 20, .lit 0, .lit 36],
                                            .st 2 (.var 20) (.lit 256),
                                            .st 2 (.padd (.var 20) (.lit 2) 1) (.lit 8),
                                            .st 2 (.padd (.var 20) (.lit 4) 1) (.lit 52),
                                            .st 2 (.padd (.var 20) (.lit 6) 1) (.lit 14),
                                            .st 2 (.padd (.var 20) (.lit 8) 1) (.lit 224),
                                            .st 2 (.padd (.var 20) (.lit 10) 1) (.lit 4000),
                                            .st 2 (.padd (.var 20) (.lit 12) 1) (.lit 672),
                                            .st 2 (.padd (.var 20) (.lit 14) 1) (.lit 1664),
                                            .st 2 (.padd (.var 20) (.lit 16) 1) (.lit 32),
                                            .st 2 (.padd (.var 20) (.lit 18) 1) (.lit 8),
                                            .st 2 (.padd (.var 20) (.lit 20) 1) (.lit 8),
                                            .st 2 (.padd (.var 20) (.lit 22) 1) (.lit 0),
                                            .st 2 (.padd (.var 20) (.lit 24) 1) (.lit 32),
                                            .st 2 (.padd (.var 20) (.lit 26) 1) (.lit 28400),
                                            .st 2 (.padd (.var 20) (.lit 28) 1) (.lit 64),
                                            .st 4 (.padd (.var 20) (.lit 32) 1) (.lit 6),
                                            .ret (.ld 36 (.var 20))])
                                          (.ite (.bin .eq (.var 1) (.lit 11))
                                              (block [
                                                .new 22 (.lit 36),
                                                .call (some 23) Id.memset [.var 22, .lit 0, .lit 36],
                                                .st 2 (.var 22) (.lit 256),
                                                .st 2 (.padd (.var 22) (.lit 2) 1) (.lit 8),
                                                .st 2 (.padd (.var 22) (.lit 4) 1) (.lit 0),
                                                .st 2 (.padd (.var 22) (.lit 6) 1) (.lit 14),
                                                .st 2 (.padd (.var 22) (.lit 8) 1) (.lit 448),
                                                .st 2 (.padd (.var 22) (.lit 10) 1) (.lit 3584),
                                                .st 2 (.padd (.var 22) (.lit 12) 1) (.lit 0),
                                                .st 2 (.padd (.var 22) (.lit 14) 1) (.lit 3584),
                                                .st 2 (.padd (.var 22) (.lit 16) 1) (.lit 22),
                                                .st 2 (.padd (.var 22) (.lit 18) 1) (.lit 12),
                                                .st 2 (.padd (.var 22) (.lit 20) 1) (.lit 11),
                                                .st 2 (.padd (.var 22) (.lit 22) 1) (.lit 14),
                                                .st 2 (.padd (.var 22) (.lit 24) 1) (.lit 8),
                                                .st 2 (.padd (.var 22) (.lit 26) 1) (.lit 20956),
                                                .st 2 (.padd (.var 22) (.lit 28) 1) (.lit 64),
                                                .st 4 (.padd (.var 22) (.lit 32) 1) (.lit 11),
                                                .ret (.ld 36 (.var 22))])
                                              (.ite (.bin .eq (.var 1) (.lit 12))
                                                  (block [
                                                    .new 24 (.lit 36),
                                                    .call (some 25) Id.memset [.var 24, .lit 0, .lit 36],
                                                    .st 2 (.var 24) (.lit 256),
                                                    .st 2 (.padd (.var 24) (.lit 2) 1) (.lit 8),
                                                    .st 2 (.padd (.var 24) (.lit 4) 1) (.lit 0),
                                                    .st 2 (.padd (.var 24) (.lit 6) 1) (.lit 14),
                                                    .st 2 (.padd (.var 24) (.lit 8) 1) (.lit 448),
                                                    .st 2 (.padd (.var 24) (.lit 10) 1) (.lit 3584),
                                                    .st 2 (.padd (.var 24) (.lit 12) 1) (.lit 0),
                                                    .st 2 (.padd (.var 24) (.lit 14) 1) (.lit 3584),
                                                    .st 2 (.padd (.var 24) (.lit 16) 1) (.lit 32),
                                                    .st 2 (.padd (.var 24) (.lit 18) 1) (.lit 8),
                                                    .st 2 (.padd (.var 24) (.lit 20) 1) (.lit 8),
                                                    .st 2 (.padd (.var 24) (.lit 22) 1) (.lit 0),
                                                    .st 2 (.padd (.var 24) (.lit 24) 1) (.lit 32),
                                                    .st 2 (.padd (.var 24) (.lit 26) 1) (.lit 26736),
                                                    .st 2 (.padd (.var 24) (.lit 28) 1) (.lit 64),
                                                    .st 4 (.padd (.var 24) (.lit 32) 1) (.lit 12),
                                                    .ret (.ld 36 (.var 24))])
                                                  (block [
                                                    .new 26 (.lit 36),
                                                    .call (some 27) Id.memset [.var 26, .lit 0, .lit 36],
                                                    .ret (.ld 36 (.var 26))]))))))))))))]⟩

end Faest.Leak.Prog
